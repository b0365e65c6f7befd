import Verif.Model.AlignedArray
import Mathlib.Order.Basic
import Mathlib.Data.List.FinRange

/-!
# C69 arrays are values
-/

namespace Nova.Array

variable {N : Nat} {α : Type}

/-! ## Specification: arrays are independent values -/

/-- The value of every existing array. -/
abbrev Values (N : Nat) (α : Type) := Nat → Option (Fin N → α)

/-- What the operations mean. -/
def meaning (zero : α) (s : Values N α) : Op α → Values N α
  | .create i _ => fun k => if k = i then some fun _ => zero else s k
  | .copyCtor i j _ => fun k => if k = i then s j else s k
  | .assign i j => fun k => if k = i then s j else s k
  | .at i n v => fun k => if k = i then (s i).map fun x l => if l.val = n then v else x l else s k
  | .fill i v => fun k => if k = i then some fun _ => v else s k
  | .swap i j => fun k => if k = i then s j else if k = j then s i else s k
  | .destroy i => fun k => if k = i then none else s k

def meanings (zero : α) (s : Values N α) (ops : List (Op α)) : Values N α := ops.foldl (meaning zero) s

/-- Objects are created once and used while they exist, indices are below the size, `malloc` succeeds with a fresh block. -/
def Legal (h : State N α) : Op α → Prop
  | .create i p => h.obj i = none ∧ p ≠ 0 ∧ h.live p = false
  | .copyCtor i j p => h.obj i = none ∧ h.obj j ≠ none ∧ p ≠ 0 ∧ h.live p = false
  | .assign i j => h.obj i ≠ none ∧ h.obj j ≠ none
  | .at i k _ => h.obj i ≠ none ∧ k < N
  | .fill i _ => h.obj i ≠ none
  | .swap i j => h.obj i ≠ none ∧ h.obj j ≠ none
  | .destroy i => h.obj i ≠ none

def LegalRun (zero : α) (h : State N α) : List (Op α) → Prop
  | [] => True
  | op :: ops => Legal h op ∧ ∀ h', step zero h op = .ok h' → LegalRun zero h' ops

/-- The arrays that a state represents. -/
def values (h : State N α) : Values N α := fun i => (h.obj i).map h.mem

/-- Every array has an allocated block of its own, and every allocated block belongs to an array. -/
structure Inv (h : State N α) : Prop where
  held : ∀ i p, h.obj i = some p → h.live p = true
  once : ∀ i j p, h.obj i = some p → h.obj j = some p → i = j
  all : ∀ p, h.live p = true → ∃ i, h.obj i = some p

/-! ## Loops -/

theorem fill_list (l : List (Fin N)) (h : State N α) (p : Nat) (v : α) (hp : h.live p = true) :
    forAll l h (fun h k => h.write p k v) =
      .ok { h with mem := fun q k => if q = p ∧ k ∈ l then v else h.mem q k } := by
  induction l generalizing h with
  | nil => simp [forAll]; rfl
  | cons a l ih =>
    unfold forAll at ih ⊢
    rw [List.foldlM_cons]
    have : h.write p a v = .ok { h with mem := fun q l => if q = p ∧ l = a then v else h.mem q l } := by
      unfold State.write; rw [if_pos hp]
    rw [this]
    change List.foldlM _ _ l = _
    rw [ih]
    · congr 2
      funext q k
      dsimp only
      by_cases hq : q = p <;> by_cases hk : k = a <;> by_cases hl : k ∈ l <;> simp [hq, hk, hl]
    · exact hp

theorem copy_list (l : List (Fin N)) (h : State N α) (p q : Nat) (hp : h.live p = true) (hq : h.live q = true) :
    forAll l h (fun h k => do
      let v ← h.read q k
      h.write p k v) =
      .ok { h with mem := fun r k => if r = p ∧ k ∈ l then h.mem q k else h.mem r k } := by
  induction l generalizing h with
  | nil => simp [forAll]; rfl
  | cons a l ih =>
    unfold forAll at ih ⊢
    rw [List.foldlM_cons]
    have hr : h.read q a = .ok (h.mem q a) := by unfold State.read; rw [if_pos hq]
    have hw : h.write p a (h.mem q a) =
        .ok { h with mem := fun r l => if r = p ∧ l = a then h.mem q a else h.mem r l } := by
      unfold State.write; rw [if_pos hp]
    rw [hr]
    change (h.write p a (h.mem q a) >>= fun h => List.foldlM _ h l) = _
    rw [hw]
    change List.foldlM _ _ l = _
    rw [ih]
    · congr 2
      funext r k
      dsimp only
      by_cases hr : r = p <;> by_cases hk : k = a <;> by_cases hl : k ∈ l <;> by_cases hqp : q = p <;>
        simp [hr, hk, hl, hqp] <;> (try subst hk) <;> simp_all
    · exact hp
    · exact hq

theorem ok_bind {β γ : Type} (a : β) (f : β → M γ) : ((Except.ok a : M β) >>= f) = f a := rfl

theorem swap_list (l : List (Fin N)) (hl : l.Nodup) (h : State N α) (p q : Nat) (hp : h.live p = true)
    (hq : h.live q = true) :
    forAll l h (fun h k => do
      let a ← h.read p k
      let b ← h.read q k
      let h ← h.write p k b
      h.write q k a) =
      .ok { h with
        mem := fun r k =>
          if k ∈ l then (if r = p then h.mem q k else if r = q then h.mem p k else h.mem r k) else h.mem r k } := by
  induction l generalizing h with
  | nil => simp [forAll]; rfl
  | cons a l ih =>
    unfold forAll at ih ⊢
    rw [List.foldlM_cons]
    obtain ⟨hal, hl⟩ := List.nodup_cons.mp hl
    have hr1 : h.read p a = .ok (h.mem p a) := by unfold State.read; rw [if_pos hp]
    have hr2 : h.read q a = .ok (h.mem q a) := by unfold State.read; rw [if_pos hq]
    have hw : h.write p a (h.mem q a) =
        .ok { h with mem := fun r l => if r = p ∧ l = a then h.mem q a else h.mem r l } := by
      unfold State.write; rw [if_pos hp]
    have hw2 : ∀ g : State N α, g.live q = true → ∀ v, g.write q a v =
        .ok { g with mem := fun r l => if r = q ∧ l = a then v else g.mem r l } := by
      intro g hg v; unfold State.write; rw [if_pos hg]
    rw [hr1, ok_bind, hr2, ok_bind, hw, ok_bind, hw2 _ (by exact hq), ok_bind, ih hl]
    · congr 2
      funext r k
      dsimp only
      by_cases hk : k = a
      · subst hk
        rw [if_neg hal]
        by_cases hrp : r = p <;> by_cases hrq : r = q <;> by_cases hpq : p = q <;> simp_all
      · by_cases hkl : k ∈ l <;> simp [hk, hkl]
    · exact hp
    · exact hq

theorem fill_ok (h : State N α) (p : Nat) (v : α) (hp : h.live p = true) :
    fill h p v = .ok { h with mem := fun q => if q = p then (fun _ => v) else h.mem q } := by
  unfold fill
  rw [fill_list _ _ _ _ hp]
  congr 2
  funext q k
  by_cases hq : q = p <;> simp [hq]

theorem copy_ok (h : State N α) (p q : Nat) (hp : h.live p = true) (hq : h.live q = true) :
    copy h p q = .ok { h with mem := fun r => if r = p then h.mem q else h.mem r } := by
  unfold copy
  rw [copy_list _ _ _ _ hp hq]
  congr 2
  funext r k
  by_cases hr : r = p <;> simp [hr]

theorem swap_ok (h : State N α) (p q : Nat) (hp : h.live p = true) (hq : h.live q = true) :
    swapRanges h p q =
      .ok { h with mem := fun r => if r = p then h.mem q else if r = q then h.mem p else h.mem r } := by
  unfold swapRanges
  rw [swap_list _ (List.nodup_finRange N) _ _ _ hp hq]
  congr 2
  funext r k
  by_cases hr : r = p
  · simp [hr]
  · by_cases hr2 : r = q <;> by_cases hpq : q = p <;> simp_all

theorem elems_ok {h : State N α} {i : Nat} (hi : h.obj i ≠ none) :
    ∃ p, h.obj i = some p ∧ h.elems i = .ok p := by
  cases hp : h.obj i with
  | none => exact absurd hp hi
  | some p => exact ⟨p, rfl, by unfold State.elems; rw [hp]⟩

/-- Changing contents does not change ownership. -/
theorem Inv.mem {h : State N α} (I : Inv h) (m : Nat → Fin N → α) : Inv { h with mem := m } :=
  ⟨I.held, I.once, I.all⟩

/-- A new array with a fresh block. -/
theorem Inv.new {h : State N α} (I : Inv h) {i p : Nat} (hi : h.obj i = none) (hp : h.live p = false)
    (m : Nat → Fin N → α) :
    Inv (State.set { live := fun q => if q = p then true else h.live q, mem := m, obj := h.obj } i (some p)) := by
  have hne : ∀ k, h.obj k ≠ some p := by
    intro k hk; rw [I.held k p hk] at hp; cases hp
  unfold State.set
  constructor
  · intro k q hq
    dsimp only at hq ⊢
    by_cases e : k = i
    · rw [if_pos e] at hq; cases hq; rw [if_pos rfl]
    · rw [if_neg e] at hq
      by_cases e2 : q = p
      · rw [if_pos e2]
      · rw [if_neg e2]; exact I.held k q hq
  · intro k l q hk hl
    dsimp only at hk hl
    by_cases e1 : k = i <;> by_cases e2 : l = i
    · rw [e1, e2]
    · rw [if_pos e1] at hk; rw [if_neg e2] at hl; cases hk; exact absurd hl (hne l)
    · rw [if_neg e1] at hk; rw [if_pos e2] at hl; cases hl; exact absurd hk (hne k)
    · rw [if_neg e1] at hk; rw [if_neg e2] at hl; exact I.once k l q hk hl
  · intro q hq
    dsimp only at hq ⊢
    by_cases e : q = p
    · exact ⟨i, by rw [if_pos rfl, e]⟩
    · rw [if_neg e] at hq
      obtain ⟨k, hk⟩ := I.all q hq
      refine ⟨k, ?_⟩
      rw [if_neg]; · exact hk
      intro e2; rw [e2, hi] at hk; cases hk

/-- The end of an array. -/
theorem Inv.gone {h : State N α} (I : Inv h) {i p : Nat} (hi : h.obj i = some p) :
    Inv (State.set { h with live := fun q => if q = p then false else h.live q } i none) := by
  unfold State.set
  constructor
  · intro k q hq
    dsimp only at hq ⊢
    by_cases e : k = i
    · rw [if_pos e] at hq; cases hq
    · rw [if_neg e] at hq
      rw [if_neg]; · exact I.held k q hq
      intro e2; exact e (I.once k i q hq (e2 ▸ hi))
  · intro k l q hk hl
    dsimp only at hk hl
    by_cases e1 : k = i
    · rw [if_pos e1] at hk; cases hk
    · by_cases e2 : l = i
      · rw [if_pos e2] at hl; cases hl
      · rw [if_neg e1] at hk; rw [if_neg e2] at hl; exact I.once k l q hk hl
  · intro q hq
    dsimp only at hq ⊢
    by_cases e : q = p
    · rw [if_pos e] at hq; cases hq
    · rw [if_neg e] at hq
      obtain ⟨k, hk⟩ := I.all q hq
      refine ⟨k, ?_⟩
      rw [if_neg]; · exact hk
      intro e2; rw [e2, hi] at hk; cases hk; exact e rfl

theorem step_ok (zero : α) {h : State N α} (I : Inv h) {op : Op α} (hl : Legal h op) :
    ∃ h', step zero h op = .ok h' ∧ Inv h' ∧ values h' = meaning zero (values h) op := by
  cases op with
  | create i p =>
    obtain ⟨hi, h0, hp⟩ := hl
    have hm : malloc h p = { h with live := fun q => if q = p then true else h.live q } := by
      unfold malloc; rw [if_neg h0]
    refine ⟨_, ?_, I.new hi hp (fun q => if q = p then (fun _ => zero) else h.mem q), ?_⟩
    · simp only [step]
      rw [hm, fill_ok _ _ _ (by simp)]
      rfl
    · funext k
      simp only [values, meaning, State.set]
      by_cases e : k = i
      · simp [e]
      · rw [if_neg e, if_neg e]
        cases hk : h.obj k with
        | none => rfl
        | some r =>
          have : r ≠ p := by intro e2; rw [← e2, I.held k r hk] at hp; cases hp
          simp [this]
  | copyCtor i j p =>
    obtain ⟨hi, hj, h0, hp⟩ := hl
    obtain ⟨q, hq, hg⟩ := elems_ok hj
    have hm : malloc h p = { h with live := fun q => if q = p then true else h.live q } := by
      unfold malloc; rw [if_neg h0]
    have hqp : q ≠ p := by intro e; rw [← e, I.held j q hq] at hp; cases hp
    refine ⟨_, ?_, I.new hi hp (fun r => if r = p then h.mem q else h.mem r), ?_⟩
    · simp only [step]
      rw [hg, ok_bind, hm, fill_ok _ _ _ (by simp), ok_bind, copy_ok _ _ _ (by simp) (by simp [I.held j q hq])]
      rw [ok_bind]
      simp only [if_neg hqp]
      congr 3
      funext r
      by_cases hr : r = p <;> simp [hr]
    · funext k
      simp only [values, meaning, State.set]
      by_cases e : k = i
      · simp [e, hq]
      · rw [if_neg e, if_neg e]
        cases hk : h.obj k with
        | none => rfl
        | some r =>
          have : r ≠ p := by intro e2; rw [← e2, I.held k r hk] at hp; cases hp
          simp [this]
  | assign i j =>
    obtain ⟨p, hp, hg⟩ := elems_ok hl.1
    obtain ⟨q, hq, hg2⟩ := elems_ok hl.2
    refine ⟨_, ?_, I.mem (fun r => if r = p then h.mem q else h.mem r), ?_⟩
    · simp only [step]
      rw [hg, ok_bind, hg2, ok_bind, copy_ok _ _ _ (I.held _ _ hp) (I.held _ _ hq)]
    · funext k
      simp only [values, meaning]
      by_cases e : k = i
      · rw [if_pos e, e, hp, hq]; simp
      · rw [if_neg e]
        cases hk : h.obj k with
        | none => rfl
        | some r =>
          have : r ≠ p := by intro e2; exact e (I.once k i p (e2 ▸ hk) hp)
          simp [this]
  | «at» i n v =>
    obtain ⟨hi, hn⟩ := hl
    obtain ⟨p, hp, hg⟩ := elems_ok hi
    have hw : h.write p ⟨n, hn⟩ v =
        .ok { h with mem := fun q l => if q = p ∧ l = ⟨n, hn⟩ then v else h.mem q l } := by
      unfold State.write; rw [if_pos (I.held _ _ hp)]
    refine ⟨_, ?_, I.mem (fun q l => if q = p ∧ l = ⟨n, hn⟩ then v else h.mem q l), ?_⟩
    · simp only [step]
      rw [hg, ok_bind, dif_pos hn, hw]
    · funext k
      simp only [values, meaning]
      by_cases e : k = i
      · rw [if_pos e, e, hp]
        simp only [Option.map_some, true_and]
        congr 1
        funext l
        by_cases hln : l.val = n
        · rw [if_pos hln, if_pos (Fin.ext hln)]
        · rw [if_neg hln, if_neg (fun e => hln (by rw [e]))]
      · rw [if_neg e]
        cases hk : h.obj k with
        | none => rfl
        | some r =>
          have : r ≠ p := by intro e2; exact e (I.once k i p (e2 ▸ hk) hp)
          simp [this]
  | fill i v =>
    obtain ⟨p, hp, hg⟩ := elems_ok hl
    refine ⟨_, ?_, I.mem (fun q => if q = p then (fun _ => v) else h.mem q), ?_⟩
    · simp only [step]
      rw [hg, ok_bind, fill_ok _ _ _ (I.held _ _ hp)]
    · funext k
      simp only [values, meaning]
      by_cases e : k = i
      · rw [if_pos e, e, hp]; simp
      · rw [if_neg e]
        cases hk : h.obj k with
        | none => rfl
        | some r =>
          have : r ≠ p := by intro e2; exact e (I.once k i p (e2 ▸ hk) hp)
          simp [this]
  | swap i j =>
    obtain ⟨p, hp, hg⟩ := elems_ok hl.1
    obtain ⟨q, hq, hg2⟩ := elems_ok hl.2
    refine ⟨_, ?_, I.mem (fun r => if r = p then h.mem q else if r = q then h.mem p else h.mem r), ?_⟩
    · simp only [step]
      rw [hg, ok_bind, hg2, ok_bind, swap_ok _ _ _ (I.held _ _ hp) (I.held _ _ hq)]
    · funext k
      simp only [values, meaning]
      by_cases e : k = i
      · rw [if_pos e, e, hp, hq]; simp
      · rw [if_neg e]
        by_cases e2 : k = j
        · have : q ≠ p := by intro e3; exact e (I.once k i q (e2 ▸ hq) (e3 ▸ hp))
          rw [if_pos e2, e2, hp, hq]; simp [this]
        · rw [if_neg e2]
          cases hk : h.obj k with
          | none => rfl
          | some r =>
            have h1 : r ≠ p := by intro e3; exact e (I.once k i p (e3 ▸ hk) hp)
            have h2 : r ≠ q := by intro e3; exact e2 (I.once k j q (e3 ▸ hk) hq)
            simp [h1, h2]
  | destroy i =>
    obtain ⟨p, hp, hg⟩ := elems_ok hl
    refine ⟨_, ?_, I.gone hp, ?_⟩
    · simp only [step]
      rw [hg, ok_bind, if_pos (I.held _ _ hp)]
      rfl
    · funext k
      simp only [values, meaning, State.set]
      by_cases e : k = i
      · simp [e]
      · simp [e]

theorem run_ok (zero : α) (ops : List (Op α)) {h : State N α} (I : Inv h) (hl : LegalRun zero h ops) :
    ∃ h', run zero h ops = .ok h' ∧ Inv h' ∧ values h' = meanings zero (values h) ops := by
  induction ops generalizing h with
  | nil => exact ⟨h, rfl, I, rfl⟩
  | cons op ops ih =>
    obtain ⟨h1, hs, I1, v1⟩ := step_ok zero I hl.1
    obtain ⟨h2, hr, I2, v2⟩ := ih I1 (hl.2 h1 hs)
    refine ⟨h2, ?_, I2, ?_⟩
    · simp only [run]; rw [hs]; exact hr
    · rw [v2, v1]; rfl

/-- Histories of construction, copying, assignment (also to itself), element access, filling, swapping (also with itself) and
destruction: nothing faults, every array always has the value that the history gives to it, as if arrays were
independent values; when all arrays are gone nothing is allocated. -/
theorem C69_values (zero : α) (junk : Nat → Fin N → α) (ops : List (Op α))
    (hl : LegalRun zero (.empty junk) ops) :
    ∃ h, run zero (.empty junk) ops = .ok h ∧ values h = meanings zero (fun _ => none) ops ∧
      ((∀ i, h.obj i = none) → ∀ p, h.live p = false) := by
  have I0 : Inv (State.empty junk) := by
    constructor <;> simp [State.empty]
  obtain ⟨h, hr, I, v⟩ := run_ok zero ops I0 hl
  refine ⟨h, hr, v, ?_⟩
  intro hn p
  cases hp : h.live p with
  | false => rfl
  | true =>
    obtain ⟨i, hi⟩ := I.all p hp
    rw [hn i] at hi; cases hi

/-- `at` with an index out of range is reported, in any state. -/
theorem C69_range (zero : α) (h : State N α) (i k : Nat) (v : α) (hi : h.obj i ≠ none) (hk : N ≤ k) :
    step zero h (.at i k v) = .error .outOfRange := by
  obtain ⟨p, -, hg⟩ := elems_ok hi
  simp only [step]
  rw [hg, ok_bind, dif_neg (by omega)]

/-- The constructor does not notice that there is no memory: it writes through the null pointer. -/
theorem C69_negation (zero : α) (junk : Nat → Fin (N + 1) → α) :
    step zero (State.empty junk) (.create 0 0) = .error (.badAccess 0) := by
  simp only [step, malloc, if_true]
  unfold fill forAll
  rw [List.finRange_succ, List.foldlM_cons]
  rfl

/-- A legal history with two arrays: the copy keeps its value when the original changes. -/
example : ∃ h, run (N := 2) 0 (.empty fun _ _ => 7)
      [.create 0 5, .at 0 1 3, .copyCtor 1 0 6, .at 0 1 4, .swap 0 1, .assign 1 1] = .ok h ∧
    h.obj 0 = some 5 ∧ h.mem 5 1 = 3 ∧ h.obj 1 = some 6 ∧ h.mem 6 1 = 4 := by
  refine ⟨_, rfl, ?_⟩
  decide

example : LegalRun (N := 2) 0 (.empty fun _ _ => 7)
    [.create 0 5, .at 0 1 3, .copyCtor 1 0 6, .at 0 1 4, .swap 0 1, .destroy 0] := by
  refine ⟨⟨rfl, by decide, rfl⟩, fun h e => ?_⟩
  cases e
  refine ⟨⟨by decide, by decide⟩, fun h e => ?_⟩
  cases e
  refine ⟨⟨rfl, by decide, by decide, rfl⟩, fun h e => ?_⟩
  cases e
  refine ⟨⟨by decide, by decide⟩, fun h e => ?_⟩
  cases e
  refine ⟨⟨by decide, by decide⟩, fun h e => ?_⟩
  cases e
  refine ⟨?_, fun _ _ => trivial⟩
  show _ ≠ none
  decide

/-! ## Comparison -/

/-- On a linear order the six operators are those of the lexicographic order of lists. -/
theorem C69_order {β : Type} [LinearOrder β] (x y : List β) (hxy : x.length = y.length) :
    (equal (fun a b => decide (a = b)) x y = true ↔ x = y) ∧
    (notEqual (fun a b => decide (a = b)) x y = true ↔ x ≠ y) ∧
    (less (fun a b => decide (a < b)) x y = true ↔ x < y) ∧
    (greater (fun a b => decide (a < b)) x y = true ↔ y < x) ∧
    (lessEqual (fun a b => decide (a < b)) x y = true ↔ x ≤ y) ∧
    (greaterEqual (fun a b => decide (a < b)) x y = true ↔ y ≤ x) := by
  have he : ∀ x y : List β, x.length = y.length → (equal (fun a b => decide (a = b)) x y = true ↔ x = y) := by
    intro x
    induction x with
    | nil => intro y h; cases y <;> simp_all [equal]
    | cons a x ih =>
      intro y h
      cases y with
      | nil => simp at h
      | cons b y =>
        have := ih y (by simpa using h)
        simp only [equal, List.zip_cons_cons, List.all_cons, Bool.and_eq_true, decide_eq_true_eq, List.cons.injEq] at this ⊢
        rw [this]
  have hlt : ∀ x y : List β, (less (fun a b => decide (a < b)) x y = true ↔ x < y) := by
    intro x
    induction x with
    | nil => intro y; cases y <;> simp [less]
    | cons a x ih =>
      intro y
      cases y with
      | nil => simp [less]
      | cons b y =>
        simp only [less, decide_eq_true_eq]
        rw [List.cons_lt_cons_iff]
        by_cases h1 : a < b
        · simp [h1]
        · by_cases h2 : b < a
          · have : a ≠ b := fun e => by rw [e] at h2; exact lt_irrefl _ h2
            simp [h1, h2, this]
          · have : a = b := le_antisymm (not_lt.mp h2) (not_lt.mp h1)
            simp [h1, h2, ih y, this]
  refine ⟨he x y hxy, ?_, hlt x y, hlt y x, ?_, ?_⟩
  · unfold notEqual
    rw [Bool.not_eq_true', ← Bool.not_eq_true, he x y hxy]
  · unfold lessEqual
    rw [Bool.not_eq_true', ← Bool.not_eq_true, hlt y x]; exact Iff.rfl
  · unfold greaterEqual
    rw [Bool.not_eq_true', ← Bool.not_eq_true, hlt x y]; exact Iff.rfl

end Nova.Array
