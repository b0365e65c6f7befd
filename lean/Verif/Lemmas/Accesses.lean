import Mathlib.Tactic.Choose
import Mathlib.Data.Fin.Tuple.Basic
import Verif.SpecThreads
import Verif.Lemmas.Buffers

/-!
# Which cells the loops access

`Does R W call Q`: `call` consists of reads of cells in `R` and writes to cells in `W`, and its results
satisfy `Q`, whatever the memory contains.
-/

namespace Nova
open Spec
variable {α β γ σ : Type} {R W : Nat → Prop}

namespace Prog
open Spec.Prog

/-- `Within`, and the results satisfy `Q`. -/
def Gives (R W : Nat → Prop) (Q : β → Prop) : Prog α β → Prop
  | .ret b => Q b
  | .fail _ => True
  | .read a _ k => R a ∧ ∀ v, Gives R W Q (k v)
  | .write a _ _ k => W a ∧ Gives R W Q k

theorem Gives.within {Q : β → Prop} {p : Prog α β} (h : Gives R W Q p) : p.Within R W := by
  induction p with
  | ret b => trivial
  | fail e => trivial
  | read a e k ih => exact ⟨h.1, fun v => ih v (h.2 v)⟩
  | write a v e k ih => exact ⟨h.1, ih h.2⟩

/-- `p` followed by `f`. -/
def andThen (f : β → Prog α γ) : Prog α β → Prog α γ
  | .ret b => f b
  | .fail e => .fail e
  | .read a e k => .read a e fun v => andThen f (k v)
  | .write a v e k => .write a v e (andThen f k)

theorem andThen_gives {Q : β → Prop} {Q' : γ → Prop} {f : β → Prog α γ} {p : Prog α β}
    (h : Gives R W Q p) (hf : ∀ b, Q b → Gives R W Q' (f b)) : Gives R W Q' (andThen f p) := by
  induction p with
  | ret b => exact hf b h
  | fail e => trivial
  | read a e k ih => exact ⟨h.1, fun v => ih v (h.2 v)⟩
  | write a v e k ih => exact ⟨h.1, ih h.2⟩

theorem andThen_run {Q : β → Prop} {f : β → Prog α γ} {g : β → Exec α γ} {p : Prog α β}
    (h : Gives R W Q p) (hf : ∀ b, Q b → (f b).run = g b) : (andThen f p).run = (p.run >>= g) := by
  funext m
  rw [Exec.bind_run]
  induction p generalizing m with
  | ret b => exact congrFun (hf b h) m
  | fail e => rfl
  | read a e k ih =>
    unfold andThen Prog.run
    cases m a with
    | none => rfl
    | some v => exact ih v (h.2 v) m
  | write a v e k ih =>
    unfold andThen Prog.run
    cases m a with
    | none => rfl
    | some w => exact ih h.2 _

end Prog

def Does (R W : Nat → Prop) (call : Exec α β) (Q : β → Prop) : Prop :=
  ∃ p : Prog α β, p.run = call ∧ Prog.Gives R W Q p

theorem Does.accesses {call : Exec α β} {Q : β → Prop} (h : Does R W call Q) : Accesses R W call := by
  obtain ⟨p, h1, h2⟩ := h
  exact ⟨p, h1, h2.within⟩

theorem Does.bind {x : Exec α β} {f : β → Exec α γ} {Q : β → Prop} {Q' : γ → Prop} (h : Does R W x Q)
    (hf : ∀ b, Q b → Does R W (f b) Q') : Does R W (x >>= f) Q' := by
  classical
  obtain ⟨p, rfl, hp⟩ := h
  have hk : ∀ b, ∃ q : Prog α γ, Q b → q.run = f b ∧ Prog.Gives R W Q' q := by
    intro b
    by_cases h : Q b
    · obtain ⟨q, h1, h2⟩ := hf b h
      exact ⟨q, fun _ => ⟨h1, h2⟩⟩
    · exact ⟨.fail .illFormed, fun h' => absurd h' h⟩
  choose k hk using hk
  exact ⟨Prog.andThen k p, Prog.andThen_run hp fun b h => (hk b h).1,
    Prog.andThen_gives hp fun b h => (hk b h).2⟩

theorem Does.pure {b : β} {Q : β → Prop} (h : Q b) : Does R W (Pure.pure b : Exec α β) Q :=
  ⟨.ret b, rfl, h⟩

theorem Does.fail {e : Fault} {Q : β → Prop} : Does R W (Exec.fail e : Exec α β) Q :=
  ⟨.fail e, rfl, trivial⟩

theorem Does.lift {x : Except Fault β} {Q : β → Prop} (h : ∀ b, Q b) : Does R W (Exec.lift x : Exec α β) Q := by
  cases x with
  | ok b => exact ⟨.ret b, rfl, h b⟩
  | error e => exact ⟨.fail e, rfl, trivial⟩

theorem Does.mono {x : Exec α β} {Q Q' : β → Prop} (h : Does R W x Q) (hq : ∀ b, Q b → Q' b) :
    Does R W x Q' := by
  have := Does.bind h (f := Pure.pure) fun b hb => Does.pure (hq b hb)
  rwa [bind_pure] at this

theorem Does.widen {R' W' : Nat → Prop} {x : Exec α β} {Q : β → Prop} (h : Does R W x Q)
    (hR : ∀ a, R a → R' a) (hW : ∀ a, W a → W' a) : Does R' W' x Q := by
  obtain ⟨p, h1, h2⟩ := h
  refine ⟨p, h1, ?_⟩
  clear h1
  induction p with
  | ret b => exact h2
  | fail e => trivial
  | read a e k ih => exact ⟨hR a h2.1, fun v => ih v (h2.2 v)⟩
  | write a v e k ih => exact ⟨hW a h2.1, ih h2.2⟩

theorem does_read {p : Nat} (h : R p) : Does R W (read p : Exec α α) fun _ => True := by
  refine ⟨.read p (.oob p) .ret, ?_, h, fun _ => trivial⟩
  funext m
  unfold Prog.run read
  cases m p <;> rfl

theorem does_write {p : Nat} {v : α} (h : W p) : Does R W (write p v) fun _ => True := by
  refine ⟨.write p v (.oob p) (.ret ()), ?_, h, trivial⟩
  funext m
  unfold Prog.run write
  cases m p <;> rfl

/-- Reading `k` elements into a list of values. -/
def readProg (e : Fault) : (w p : Nat) → Prog α (Vec α w)
  | 0, _ => .ret Fin.elim0
  | w + 1, p => .read p e fun v => Prog.andThen (fun f => .ret (Fin.cons v f)) (readProg e w (p + 1))

theorem readProg_gives {e : Fault} {w p : Nat} (h : ∀ i, i < w → R (p + i)) :
    Prog.Gives R W (fun _ => True) (readProg (α := α) e w p) := by
  induction w generalizing p with
  | zero => trivial
  | succ w ih =>
    refine ⟨h 0 (by omega), fun v => Prog.andThen_gives (ih fun i hi => ?_) fun _ _ => trivial⟩
    rw [Nat.add_assoc, Nat.add_comm 1 i]
    exact h _ (by omega)

theorem readProg_run {e : Fault} {w p : Nat} (m : Mem α) :
    (readProg e w p).run m = if h : m.allocated p w then .ok (fun i => (m (p + i)).get (h i), m) else .error e := by
  induction w generalizing p with
  | zero =>
    rw [dif_pos (show m.allocated p 0 from fun i => i.elim0)]
    unfold readProg Prog.run
    congr 2
    funext i
    exact i.elim0
  | succ w ih =>
    unfold readProg Prog.run
    cases hm : m p with
    | none =>
      rw [dif_neg]
      intro h
      have := h 0
      rw [show p + (0 : Fin (w + 1)).val = p from rfl, hm] at this
      cases this
    | some v =>
      have hrun := Prog.andThen_run (R := fun _ => True) (W := fun _ => True)
        (f := fun f => (.ret (Fin.cons v f) : Prog α (Vec α (w + 1)))) (g := fun f => pure (Fin.cons v f))
        (readProg_gives (e := e) (w := w) (p := p + 1) fun _ _ => trivial) fun _ _ => rfl
      show (Prog.andThen _ _).run m = _
      rw [hrun, Exec.bind_run, ih]
      by_cases h : m.allocated (p + 1) w
      · have h' : m.allocated p (w + 1) := by
          intro i
          refine Fin.cases ?_ (fun j => ?_) i
          · rw [show p + (0 : Fin (w + 1)).val = p from rfl, hm]; rfl
          · have := h j
            rwa [show p + 1 + j.val = p + j.succ.val by rw [Fin.val_succ]; omega] at this
        rw [dif_pos h, dif_pos h']
        show Except.ok (_, m) = _
        congr 2
        funext i
        refine Fin.cases ?_ (fun j => ?_) i
        · have e1 : m (p + (0 : Fin (w + 1)).val) = some v := hm
          simp only [Fin.cons_zero]
          exact (Option.get_of_eq_some _ e1).symm
        · simp only [Fin.cons_succ]
          congr 1
          rw [Fin.val_succ]
          congr 1
          omega
      · rw [dif_neg h, dif_neg]
        intro h'
        apply h
        intro j
        have := h' j.succ
        rwa [show p + j.succ.val = p + 1 + j.val by rw [Fin.val_succ]; omega] at this

theorem does_readVec {w p : Nat} (h : ∀ i, i < w → R (p + i)) :
    Does R W (readVec w p : Exec α (Vec α w)) fun _ => True := by
  refine ⟨readProg (.oob p) w p, ?_, readProg_gives h⟩
  funext m
  rw [readProg_run]
  rfl

/-- Writing `w` elements. -/
def writeProg (e : Fault) : (w p : Nat) → Vec α w → Prog α Unit
  | 0, _, _ => .ret ()
  | w + 1, p, v => .write p (v 0) e (writeProg e w (p + 1) fun i => v i.succ)

theorem writeProg_gives {e : Fault} {w p : Nat} {v : Vec α w} (h : ∀ i, i < w → W (p + i)) :
    Prog.Gives R W (fun _ => True) (writeProg e w p v) := by
  induction w generalizing p with
  | zero => trivial
  | succ w ih =>
    refine ⟨h 0 (by omega), ih fun i hi => ?_⟩
    rw [Nat.add_assoc, Nat.add_comm 1 i]
    exact h _ (by omega)

theorem writeProg_run {e : Fault} {w p : Nat} {v : Vec α w} (m : Mem α) :
    (writeProg e w p v).run m = if m.allocated p w then
      .ok ((), fun a => if h : p ≤ a ∧ a < p + w then some (v ⟨a - p, by omega⟩) else m a) else .error e := by
  induction w generalizing p m with
  | zero =>
    rw [if_pos (show m.allocated p 0 from fun i => i.elim0)]
    unfold writeProg Prog.run
    congr 2
    funext a
    rw [dif_neg (by omega)]
  | succ w ih =>
    unfold writeProg Prog.run
    cases hm : m p with
    | none =>
      rw [if_neg]
      intro h
      have := h 0
      rw [show p + (0 : Fin (w + 1)).val = p from rfl, hm] at this
      cases this
    | some u =>
      show (writeProg e w (p + 1) fun i => v i.succ).run (fun c => if c = p then some (v 0) else m c) = _
      rw [ih]
      have hiff : Mem.allocated (fun c => if c = p then some (v 0) else m c) (p + 1) w ↔ m.allocated p (w + 1) := by
        constructor
        · intro h i
          refine Fin.cases ?_ (fun j => ?_) i
          · rw [show p + (0 : Fin (w + 1)).val = p from rfl, hm]; rfl
          · have := h j
            simp only at this
            rw [if_neg (by omega)] at this
            rwa [show p + 1 + j.val = p + j.succ.val by rw [Fin.val_succ]; omega] at this
        · intro h j
          have := h j.succ
          show (if p + 1 + j.val = p then some (v 0) else m (p + 1 + j.val)).isSome
          rw [if_neg (by omega)]
          rwa [show p + j.succ.val = p + 1 + j.val by rw [Fin.val_succ]; omega] at this
      by_cases h : m.allocated p (w + 1)
      · rw [if_pos h, if_pos (hiff.mpr h)]
        congr 2
        funext a
        by_cases h1 : p + 1 ≤ a ∧ a < p + 1 + w
        · rw [dif_pos h1, dif_pos (by omega)]
          congr 2
          apply Fin.ext
          show a - (p + 1) + 1 = a - p
          omega
        · rw [dif_neg h1]
          by_cases h2 : a = p
          · rw [if_pos h2, dif_pos (by omega)]
            congr 2
            apply Fin.ext
            show 0 = a - p
            omega
          · rw [if_neg h2, dif_neg (by omega)]
      · rw [if_neg h, if_neg fun h' => h (hiff.mp h')]

theorem does_writeVec {w p : Nat} {v : Vec α w} (h : ∀ i, i < w → W (p + i)) :
    Does R W (writeVec v p) fun _ => True := by
  refine ⟨writeProg (.oob p) w p v, ?_, writeProg_gives h⟩
  funext m
  rw [writeProg_run]
  rfl

theorem does_iterM {body : σ → Exec α σ} {Inv : Nat → σ → Prop} {K : Nat}
    (h : ∀ i s, i < K → Inv i s → Does R W (body s) (Inv (i + 1))) :
    ∀ k i s, i + k ≤ K → Inv i s → Does R W (iterM body k s) (Inv (i + k))
  | 0, i, s, _, h0 => Does.pure h0
  | k + 1, i, s, hi, h0 => by
      rw [iterM]
      refine Does.bind (h i s (by omega) h0) fun s' h' => ?_
      have := does_iterM h k (i + 1) s' (by omega) h'
      rwa [show i + 1 + k = i + (k + 1) by omega] at this

theorem does_doWhile {body : σ → Exec α σ} {Inv : Nat → σ → Prop} {n : BitVec 32} {s : σ}
    (h : ∀ i s, i < tripCount n → Inv i s → Does R W (body s) (Inv (i + 1))) (h0 : Inv 0 s) :
    Does R W (doWhile body n s) (Inv (tripCount n)) := by
  rw [doWhile_eq_iterM]
  have := does_iterM h (tripCount n) 0 s (by omega) h0
  rwa [Nat.zero_add] at this

theorem does_initialised {o : Option β} : Does R W (initialised o : Exec α β) fun _ => True := by
  cases o with
  | none => exact Does.fail
  | some v => exact Does.pure trivial

/-! ## Scalar arguments -/

/-- The state of the argument `a` after `i` elements, as far as addresses are concerned. -/
def SAt (a : SArg α) (i : Nat) (s : SArg α) : Prop :=
  match a with
  | .ptr p => s = .ptr (p + i)
  | _ => ∀ q, s ≠ .ptr q

theorem SAt.zero (a : SArg α) : SAt a 0 a := by
  cases a with
  | ptr p => rfl
  | scalar c => exact fun q h => by cases h
  | ramp b s => exact fun q h => by cases h

theorem SAt.next {A : Arith α} {a s : SArg α} {i : Nat} (h : SAt a i s) : SAt a (i + 1) (s.increment A) := by
  cases a with
  | ptr p =>
    have h : s = .ptr (p + i) := h
    subst h
    rfl
  | scalar c =>
    intro q
    cases s with
    | ptr r => exact absurd rfl (h r)
    | scalar d => exact fun e => by cases e
    | ramp b t => exact fun e => by cases e
  | ramp b t =>
    intro q
    cases s with
    | ptr r => exact absurd rfl (h r)
    | scalar d => exact fun e => by cases e
    | ramp b t => exact fun e => by cases e

/-- The cells of the argument's buffer are in `R`. -/
def Readable (R : Nat → Prop) (n : Nat) : SArg α → Prop
  | .ptr p => ∀ i, i < n → R (p + i)
  | _ => True

theorem does_get {a s : SArg α} {i n : Nat} (h : SAt a i s) (hr : Readable R n a) (hi : i < n) :
    Does R W s.get fun _ => True := by
  cases a with
  | ptr p =>
    have h : s = .ptr (p + i) := h
    subst h
    exact does_read (hr i hi)
  | scalar c =>
    cases s with
    | ptr r => exact absurd rfl (h r)
    | scalar d => exact Does.pure trivial
    | ramp b t => exact Does.pure trivial
  | ramp b t =>
    cases s with
    | ptr r => exact absurd rfl (h r)
    | scalar d => exact Does.pure trivial
    | ramp b t => exact Does.pure trivial

section scalar
variable {out : Nat} {n : BitVec 32} (hn : 0 < n.toNat) (hW : ∀ i, i < n.toNat → W (out + i))
include hn hW

theorem does_vec1 {f : α → Except Fault α} {inp : Nat} (hR : ∀ i, i < n.toNat → R (inp + i)) :
    Does R W (performVec1 f out inp n) fun _ => True := by
  unfold performVec1 applyOnVector1
  refine Does.bind (does_doWhile (Inv := fun i s => s = (out + i, inp + i)) ?_ rfl) fun _ _ => Does.pure trivial
  rw [tripCount_of_pos hn]
  rintro i s hi rfl
  refine Does.bind (does_read (hR i hi)) fun x _ => ?_
  refine Does.bind (Does.lift (Q := fun _ => True) fun _ => trivial) fun y _ => ?_
  exact Does.bind (does_write (hW i hi)) fun _ _ => Does.pure rfl

theorem does_vec2 {A : Arith α} {f : α → α → α} {a b : SArg α} (ha : Readable R n.toNat a)
    (hb : Readable R n.toNat b) : Does R W (performVec2 A f out a b n) fun _ => True := by
  unfold performVec2 applyOnVector2
  refine Does.bind (does_doWhile (Inv := fun i s => s.1 = out + i ∧ SAt a i s.2.1 ∧ SAt b i s.2.2) ?_
    ⟨rfl, SAt.zero a, SAt.zero b⟩) fun _ _ => Does.pure trivial
  rw [tripCount_of_pos hn]
  rintro i ⟨o, s1, s2⟩ hi ⟨h0, h1, h2⟩
  have h0 : o = out + i := h0
  subst h0
  refine Does.bind (does_get h1 ha hi) fun x _ => Does.bind (does_get h2 hb hi) fun y _ => ?_
  exact Does.bind (does_write (hW i hi)) fun _ _ => Does.pure ⟨rfl, h1.next, h2.next⟩

theorem does_vec3 {A : Arith α} {f : α → α → α → α} {a b c : SArg α} (ha : Readable R n.toNat a)
    (hb : Readable R n.toNat b) (hc : Readable R n.toNat c) :
    Does R W (performVec3 A f out a b c n) fun _ => True := by
  unfold performVec3 applyOnVector3
  refine Does.bind (does_doWhile (Inv := fun i s => s.1 = out + i ∧ SAt a i s.2.1 ∧ SAt b i s.2.2.1 ∧
    SAt c i s.2.2.2) ?_ ⟨rfl, SAt.zero a, SAt.zero b, SAt.zero c⟩) fun _ _ => Does.pure trivial
  rw [tripCount_of_pos hn]
  rintro i ⟨o, s1, s2, s3⟩ hi ⟨h0, h1, h2, h3⟩
  have h0 : o = out + i := h0
  subst h0
  refine Does.bind (does_get h1 ha hi) fun x _ => Does.bind (does_get h2 hb hi) fun y _ =>
    Does.bind (does_get h3 hc hi) fun z _ => ?_
  exact Does.bind (does_write (hW i hi)) fun _ _ => Does.pure ⟨rfl, h1.next, h2.next, h3.next⟩

theorem does_vec4 {A : Arith α} {f : α → α → α → α → α} {a b c d : SArg α} (ha : Readable R n.toNat a)
    (hb : Readable R n.toNat b) (hc : Readable R n.toNat c) (hd : Readable R n.toNat d) :
    Does R W (performVec4 A f out a b c d n) fun _ => True := by
  unfold performVec4 applyOnVector4
  refine Does.bind (does_doWhile (Inv := fun i s => s.1 = out + i ∧ SAt a i s.2.1 ∧ SAt b i s.2.2.1 ∧
    SAt c i s.2.2.2.1 ∧ SAt d i s.2.2.2.2) ?_ ⟨rfl, SAt.zero a, SAt.zero b, SAt.zero c, SAt.zero d⟩)
    fun _ _ => Does.pure trivial
  rw [tripCount_of_pos hn]
  rintro i ⟨o, s1, s2, s3, s4⟩ hi ⟨h0, h1, h2, h3, h4⟩
  have h0 : o = out + i := h0
  subst h0
  refine Does.bind (does_get h1 ha hi) fun x _ => Does.bind (does_get h2 hb hi) fun y _ =>
    Does.bind (does_get h3 hc hi) fun z _ => Does.bind (does_get h4 hd hi) fun u _ => ?_
  exact Does.bind (does_write (hW i hi)) fun _ _ => Does.pure ⟨rfl, h1.next, h2.next, h3.next, h4.next⟩

end scalar

/-! ## Vector arguments -/
section vector
variable {I : VecImpl α} {al : Nat}

/-- The state of a vector argument after `j` registers, as far as addresses are concerned. -/
def VAt (I : VecImpl α) (a : SArg α) (j : Nat) (s : VArg α I.size) : Prop :=
  match a with
  | .ptr p => s = .ptr (p + j * I.size)
  | _ => ∀ q, s ≠ .ptr q

theorem VAt.zero (a : SArg α) : VAt I a 0 (wrapVectorArg I a) := by
  cases a with
  | ptr p => show VArg.ptr p = VArg.ptr (p + 0 * I.size); rw [Nat.zero_mul, Nat.add_zero]
  | scalar c => exact fun q h => by cases h
  | ramp b s => exact fun q h => by cases h

/-- `Readable`, and the pointer is aligned. -/
def VReadable (R : Nat → Prop) (al n : Nat) : SArg α → Prop
  | .ptr p => al ∣ p ∧ ∀ i, i < n → R (p + i)
  | _ => True

theorem does_consume (hI : I.Lawful al) {a : SArg α} {s : VArg α I.size} {j J : Nat} (h : VAt I a j s)
    (hr : VReadable R al (J * I.size) a) (hj : j < J) :
    Does R W (s.consume I) fun r => VAt I a (j + 1) r.2 := by
  cases a with
  | ptr p =>
    have h : s = .ptr (p + j * I.size) := h
    subst h
    show Does R W (I.loadAligned (p + j * I.size) >>= _) _
    rw [hI.loadAligned _ (dvd_add_mul hr.1 hI.al_dvd)]
    refine Does.bind (does_readVec fun i hi => ?_) fun v _ => Does.pure ?_
    · rw [Nat.add_assoc]
      exact hr.2 _ (reg_index_lt ⟨i, hi⟩ hj)
    · show VArg.ptr _ = VArg.ptr _
      rw [Nat.succ_mul, Nat.add_assoc]
  | scalar c =>
    cases s with
    | ptr r => exact absurd rfl (h r)
    | scalar d => exact Does.pure fun q e => by cases e
    | ramp b t => exact Does.pure fun q e => by cases e
  | ramp b t =>
    cases s with
    | ptr r => exact absurd rfl (h r)
    | scalar d => exact Does.pure fun q e => by cases e
    | ramp b t => exact Does.pure fun q e => by cases e

section generic
variable {consume : σ → Exec α (β × σ)} {f : β → Except Fault I.V} {At : Nat → σ → Prop} {out J : Nat}
  (hI : I.Lawful al) (hal : al ∣ out)
  (hc : ∀ j s, j < J → At j s → Does R W (consume s) fun r => At (j + 1) r.2)
  (hW : ∀ i, i < J * I.size → W (out + i))
include hI hal hc hW

theorem does_mpIterG : ∀ k j l s, j + k ≤ J → (0 < k → At (j + 1) s) → (k = 0 → At j s) →
    Does R W (mpIterG I consume f (k * I.size) (out + j * I.size) l s) (At (j + k))
  | 0, j, l, s, _, _, h0 => by
      rw [mpIterG, if_pos (by omega)]
      exact Does.pure (h0 rfl)
  | k + 1, j, l, s, hj, h, _ => by
      have hp := I.size_pos
      have e1 : (k + 1) * I.size = k * I.size + I.size := Nat.succ_mul _ _
      rw [mpIterG, if_neg (by omega), dif_neg (by omega)]
      have hst : Does R W (if (k + 1) * I.size ≠ I.size then (do
          let (v, s) ← consume s
          pure (some v, s)) else (pure (none, s) : Exec α (Option β × σ)))
          (fun r => (0 < k → At (j + 1 + 1) r.2) ∧ (k = 0 → At (j + 1) r.2)) := by
        rcases Nat.eq_zero_or_pos k with hk | hk
        · subst hk
          rw [if_neg (by omega)]
          exact Does.pure ⟨fun h => absurd h (by omega), fun _ => h (by omega)⟩
        · have : 0 < k * I.size := Nat.mul_pos hk hp
          rw [if_pos (by omega)]
          refine Does.bind (hc (j + 1) s (by omega) (h (by omega))) fun r hr => Does.pure ⟨fun _ => hr, fun e => by omega⟩
      refine Does.bind hst fun r hr => ?_
      refine Does.bind does_initialised fun x _ => ?_
      refine Does.bind (Does.lift (Q := fun _ => True) fun _ => trivial) fun v _ => ?_
      refine Does.bind (Q := fun _ => True) ?_ fun _ _ => ?_
      · rw [hI.storeAligned _ _ (dvd_add_mul hal hI.al_dvd)]
        refine does_writeVec fun i hi => ?_
        rw [Nat.add_assoc]
        exact hW _ (reg_index_lt ⟨i, hi⟩ (by omega))
      · have e3 : (k + 1) * I.size - I.size = k * I.size := by omega
        have e4 : out + j * I.size + I.size = out + (j + 1) * I.size := by rw [Nat.succ_mul]; omega
        rw [e3, e4, show j + (k + 1) = j + 1 + k by omega]
        exact does_mpIterG k (j + 1) r.1 r.2 (by omega) hr.1 hr.2

theorem does_runG {k j : Nat} {s : σ} (hk : 0 < k) (hj : j + k ≤ J) (h : At j s) :
    Does R W (runG I consume f (k * I.size) (out + j * I.size) s) (At (j + k)) := by
  have hp : 0 < k * I.size := Nat.mul_pos hk I.size_pos
  rw [runG, if_neg (by omega)]
  refine Does.bind (hc j s (by omega) h) fun r hr => ?_
  exact does_mpIterG hI hal hc hW k j (some r.1) r.2 hj (fun _ => hr) (fun e => by omega)

end generic

theorem does_simdLoopG {consume : σ → Exec α (β × σ)} {f : β → Except Fault I.V} {At : Nat → σ → Prop}
    {out : Nat} {n : BitVec 32} {s : σ} (hI : I.Lawful al) (hn : I.perLine ≤ n.toNat) (hal : al ∣ out)
    (hc : ∀ J, processed I n = J * I.size → ∀ j s, j < J → At j s → Does R W (consume s) fun r => At (j + 1) r.2)
    (hW : ∀ i, i < processed I n → W (out + i)) (h : At 0 s) :
    Does R W (simdLoopG I consume f out s n) fun _ => True := by
  obtain ⟨k, hk, hk0⟩ := Lawful.line_eq hI
  have hJ : processed I n = (n.toNat / I.perLine * k) * I.size := by
    unfold processed
    conv => lhs; rhs; rw [hk]
    rw [Nat.mul_assoc]
  unfold simdLoopG
  refine Does.bind (does_doWhile (Inv := fun q t => t.1 = out + q * I.perLine ∧ At (q * k) t.2) ?_
    ⟨by rw [Nat.zero_mul]; rfl, by rw [Nat.zero_mul]; exact h⟩) fun _ _ => Does.pure trivial
  rw [tripCount_div hI.line_pos hI.line_small hn]
  rintro q ⟨o, s'⟩ hq ⟨h0, h1⟩
  have h0 : o = out + q * I.perLine := h0
  subst h0
  have e : out + q * I.perLine = out + (q * k) * I.size := by rw [hk, Nat.mul_assoc]
  have hqk : q * k + k ≤ n.toNat / I.perLine * k := by
    rw [← Nat.succ_mul]; exact Nat.mul_le_mul_right _ hq
  have := does_runG (f := f) hI hal (hc _ hJ) (by rw [← hJ]; exact hW) hk0 hqk h1
  rw [← hk, ← e] at this
  refine Does.bind this fun r hr => Does.pure ⟨?_, ?_⟩
  · show out + q * I.perLine + I.perLine = _
    rw [Nat.succ_mul, Nat.add_assoc]
  · rw [Nat.succ_mul]; exact hr

section calls
variable {out : Nat} {n : BitVec 32} (hI : I.Lawful al) (hn : I.perLine ≤ n.toNat) (hal : al ∣ out)
  (hW : ∀ i, i < processed I n → W (out + i))
include hI hn hal hW

theorem does_simd1 {f : α → Except Fault α} {inp : Nat} (h : VReadable (α := α) R al (processed I n) (.ptr inp)) :
    Does R W (performVecSimd1 I f out inp n) fun _ => True := by
  unfold performVecSimd1
  rw [simdLoop1_eq]
  refine does_simdLoopG (At := VAt I (.ptr inp)) hI hn hal (fun J hJ j s hj hs => ?_) hW (VAt.zero _)
  rw [hJ] at h
  exact does_consume hI hs h hj

theorem does_simd2 {f : α → α → α} {a b : SArg α} (ha : VReadable R al (processed I n) a)
    (hb : VReadable R al (processed I n) b) : Does R W (performVecSimd2 I f out a b n) fun _ => True := by
  unfold performVecSimd2
  rw [simdLoop2_eq]
  refine does_simdLoopG (At := fun j s => VAt I a j s.1 ∧ VAt I b j s.2) hI hn hal (fun J hJ j s hj hs => ?_) hW
    ⟨VAt.zero _, VAt.zero _⟩
  rw [hJ] at ha hb
  exact Does.bind (does_consume hI hs.1 ha hj) fun r hr => Does.bind (does_consume hI hs.2 hb hj) fun r' hr' =>
    Does.pure ⟨hr, hr'⟩

theorem does_simd3 {f : α → α → α → α} {a b c : SArg α} (ha : VReadable R al (processed I n) a)
    (hb : VReadable R al (processed I n) b) (hc : VReadable R al (processed I n) c) :
    Does R W (performVecSimd3 I f out a b c n) fun _ => True := by
  unfold performVecSimd3
  rw [simdLoop3_eq]
  refine does_simdLoopG (At := fun j s => VAt I a j s.1 ∧ VAt I b j s.2.1 ∧ VAt I c j s.2.2) hI hn hal
    (fun J hJ j s hj hs => ?_) hW ⟨VAt.zero _, VAt.zero _, VAt.zero _⟩
  rw [hJ] at ha hb hc
  exact Does.bind (does_consume hI hs.1 ha hj) fun r hr => Does.bind (does_consume hI hs.2.1 hb hj) fun r' hr' =>
    Does.bind (does_consume hI hs.2.2 hc hj) fun r'' hr'' => Does.pure ⟨hr, hr', hr''⟩

theorem does_simd4 {f : α → α → α → α → α} {a b c d : SArg α} (ha : VReadable R al (processed I n) a)
    (hb : VReadable R al (processed I n) b) (hc : VReadable R al (processed I n) c)
    (hd : VReadable R al (processed I n) d) : Does R W (performVecSimd4 I f out a b c d n) fun _ => True := by
  unfold performVecSimd4
  rw [simdLoop4_eq]
  refine does_simdLoopG (At := fun j s => VAt I a j s.1 ∧ VAt I b j s.2.1 ∧ VAt I c j s.2.2.1 ∧ VAt I d j s.2.2.2)
    hI hn hal (fun J hJ j s hj hs => ?_) hW ⟨VAt.zero _, VAt.zero _, VAt.zero _, VAt.zero _⟩
  rw [hJ] at ha hb hc hd
  exact Does.bind (does_consume hI hs.1 ha hj) fun r hr => Does.bind (does_consume hI hs.2.1 hb hj) fun r' hr' =>
    Does.bind (does_consume hI hs.2.2.1 hc hj) fun r'' hr'' => Does.bind (does_consume hI hs.2.2.2 hd hj)
      fun r3 hr3 => Does.pure ⟨hr, hr', hr'', hr3⟩

end calls
end vector

end Nova
