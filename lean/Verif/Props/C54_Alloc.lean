import Verif.Model.AlignedAlloc

/-!
# C54 aligned allocation, C67 the allocator, C68 the smart pointer

`malloc` is arbitrary; its results are only assumed to be blocks that do not wrap around the end of the address space.
-/

namespace Nova.Alloc

/-- `[a, a + n)` contains the address `x`. -/
def InRange (x a : Addr) (n : Nat) : Prop := a.toNat ≤ x.toNat ∧ x.toNat < a.toNat + n

theorem load_store (m m' : Bytes) (a v : Addr) (h : ∀ x, (x - a).toNat < 8 → m' x = store64 m a v x) :
    load64 m' a = v := by
  have hk : ∀ k : Nat, k < 8 → (a + BitVec.ofNat 64 k - a).toNat = k := by
    intro k hk
    rw [BitVec.add_comm, BitVec.add_sub_cancel]
    simp; omega
  have hb : ∀ k : Nat, k < 8 → m' (a + BitVec.ofNat 64 k) = v.extractLsb' (8 * k) 8 := by
    intro k h8
    rw [h _ (by rw [hk k h8]; exact h8)]
    unfold store64
    rw [hk k h8, if_pos h8]
  have h0 := hb 0 (by decide)
  rw [show a + BitVec.ofNat 64 0 = a by simp] at h0
  unfold load64
  rw [show (7 : Addr) = BitVec.ofNat 64 7 from rfl, show (6 : Addr) = BitVec.ofNat 64 6 from rfl,
    show (5 : Addr) = BitVec.ofNat 64 5 from rfl, show (4 : Addr) = BitVec.ofNat 64 4 from rfl,
    show (3 : Addr) = BitVec.ofNat 64 3 from rfl, show (2 : Addr) = BitVec.ofNat 64 2 from rfl,
    show (1 : Addr) = BitVec.ofNat 64 1 from rfl, hb 7 (by decide), hb 6 (by decide), hb 5 (by decide),
    hb 4 (by decide), hb 3 (by decide), hb 2 (by decide), hb 1 (by decide), h0]
  ext i hi
  simp only [BitVec.getElem_append, BitVec.getElem_extractLsb']
  repeat' split
  all_goals (rw [← BitVec.getLsbD_eq_getElem]; congr 1; omega)

/-- The arithmetic of `malloc_aligned`. -/
theorem aligned_ret {malloc : Addr → Addr} {nbytes : Addr} {m : Bytes} (hn : nbytes.toNat + 23 < 2 ^ 64)
    (h0 : malloc (requested nbytes) ≠ 0)
    (hb : (malloc (requested nbytes)).toNat + (nbytes.toNat + 23) < 2 ^ 64) :
    ∃ d : Nat, d < 16 ∧ (mallocAligned malloc nbytes m).1.toNat = (malloc (requested nbytes)).toNat + 8 + d ∧
      ((malloc (requested nbytes)).toNat + 8 + d) % 16 = 0 ∧
      (mallocAligned malloc nbytes m).2 =
        store64 m ((mallocAligned malloc nbytes m).1 - 8) (malloc (requested nbytes)) := by
  unfold mallocAligned
  dsimp only
  rw [if_pos h0]
  generalize malloc (requested nbytes) = v at *
  have ha : ((v + 8) &&& (128 / 8 - 1)).toNat = (v.toNat + 8) % 16 := by
    rw [show (128 / 8 - 1 : Addr) = 15#64 from by decide, BitVec.toNat_and, show (15#64).toNat = 2 ^ 4 - 1 from rfl,
      Nat.and_two_pow_sub_one_eq_mod, BitVec.toNat_add, show (8 : Addr).toNat = 8 from rfl]
    omega
  generalize (v + 8) &&& (128 / 8 - 1) = al at *
  have h8 : (8 : Addr).toNat = 8 := rfl
  by_cases hz : al = 0
  · refine ⟨0, by omega, ?_, ?_, rfl⟩
    · dsimp only
      rw [if_pos hz, BitVec.toNat_add, BitVec.toNat_add, h8, show (0 : Addr).toNat = 0 from rfl]
      omega
    · rw [hz] at ha
      rw [show (0 : Addr).toNat = 0 from rfl] at ha
      omega
  · have hp : al.toNat ≠ 0 := by
      intro h; apply hz; exact BitVec.eq_of_toNat_eq h
    have hs : (128 / 8 - al).toNat = 16 - al.toNat := by
      rw [show (128 / 8 : Addr) = 16#64 from by decide, BitVec.toNat_sub, show (16#64).toNat = 16 from rfl]
      omega
    refine ⟨16 - al.toNat, by omega, ?_, ?_, rfl⟩
    · dsimp only
      rw [if_neg hz, BitVec.toNat_add, BitVec.toNat_add, h8, hs]
      omega
    · omega

theorem toNat_requested {nbytes : Addr} (hn : nbytes.toNat + 23 < 2 ^ 64) :
    (requested nbytes).toNat = nbytes.toNat + 23 := by
  unfold requested
  rw [show (128 / 8 - 1 : Addr) = 15#64 from by decide, BitVec.toNat_add, BitVec.toNat_add,
    show (15#64).toNat = 15 from rfl, show (8 : Addr).toNat = 8 from rfl]
  omega

/-- `malloc_aligned` of a size that leaves room for the bookkeeping, when `malloc` succeeds: the result is 16-byte aligned
and not null; its `nbytes` bytes and the 8 bytes before it lie inside the block that `malloc` returned; no byte outside
those 8 is changed. -/
theorem C54_malloc (malloc : Addr → Addr) (nbytes : Addr) (m : Bytes) (hn : nbytes.toNat + 23 < 2 ^ 64)
    (h0 : malloc (requested nbytes) ≠ 0)
    (hb : (malloc (requested nbytes)).toNat + (requested nbytes).toNat < 2 ^ 64) :
    (mallocAligned malloc nbytes m).1.toNat % 16 = 0 ∧ (mallocAligned malloc nbytes m).1 ≠ 0 ∧
    (malloc (requested nbytes)).toNat ≤ (mallocAligned malloc nbytes m).1.toNat - 8 ∧
    8 ≤ (mallocAligned malloc nbytes m).1.toNat ∧
    (mallocAligned malloc nbytes m).1.toNat + nbytes.toNat ≤
      (malloc (requested nbytes)).toNat + (requested nbytes).toNat ∧
    ∀ x, ¬ InRange x ((mallocAligned malloc nbytes m).1 - 8) 8 → (mallocAligned malloc nbytes m).2 x = m x := by
  rw [toNat_requested hn] at hb ⊢
  obtain ⟨d, d1, d2, d3, d4⟩ := aligned_ret (m := m) hn h0 hb
  refine ⟨by omega, ?_, by omega, by omega, by omega, ?_⟩
  · intro h
    rw [h] at d2
    simp at d2
    omega
  · intro x hx
    rw [d4]
    unfold store64
    rw [if_neg]
    intro hlt
    apply hx
    generalize (mallocAligned malloc nbytes m).1 = r at *
    unfold InRange
    have h8 : (r - 8).toNat = r.toNat - 8 := by
      rw [BitVec.toNat_sub, show (8 : Addr).toNat = 8 from rfl]; omega
    rw [BitVec.toNat_sub, h8] at hlt
    rw [h8]
    omega

/-- `free_aligned` hands exactly the block of `malloc` to `free`, if the bytes of the block outside the `nbytes` bytes of the
user have not been changed in the meantime; the user's bytes and the rest of the memory are arbitrary. -/
theorem C54_free (malloc : Addr → Addr) (nbytes : Addr) (m m' : Bytes) (hn : nbytes.toNat + 23 < 2 ^ 64)
    (h0 : malloc (requested nbytes) ≠ 0)
    (hb : (malloc (requested nbytes)).toNat + (requested nbytes).toNat < 2 ^ 64)
    (hm : ∀ x, InRange x (malloc (requested nbytes)) (requested nbytes).toNat →
      ¬ InRange x (mallocAligned malloc nbytes m).1 nbytes.toNat → m' x = (mallocAligned malloc nbytes m).2 x) :
    freeAligned m' (mallocAligned malloc nbytes m).1 = malloc (requested nbytes) := by
  rw [toNat_requested hn] at hb hm
  obtain ⟨d, d1, d2, d3, d4⟩ := aligned_ret (m := m) hn h0 hb
  unfold freeAligned
  refine load_store m m' _ _ ?_
  intro x hx
  rw [← d4]
  generalize (mallocAligned malloc nbytes m).1 = r at *
  have h8 : (r - 8).toNat = r.toNat - 8 := by
    rw [BitVec.toNat_sub, show (8 : Addr).toNat = 8 from rfl]; omega
  rw [BitVec.toNat_sub, h8] at hx
  apply hm
  · unfold InRange; omega
  · unfold InRange; omega

/-- When `malloc` fails the result is null and memory is untouched. -/
theorem C54_null (malloc : Addr → Addr) (nbytes : Addr) (m : Bytes) (h0 : malloc (requested nbytes) = 0) :
    mallocAligned malloc nbytes m = (0, m) := by
  unfold mallocAligned
  dsimp only
  rw [if_neg (by rw [h0]; simp)]

/-- `calloc_aligned` zeroes the `nbytes` bytes; of the other bytes only the 8 before them change. -/
theorem C54_calloc (malloc : Addr → Addr) (nbytes : Addr) (m : Bytes) (hn : nbytes.toNat + 23 < 2 ^ 64)
    (h0 : malloc (requested nbytes) ≠ 0)
    (hb : (malloc (requested nbytes)).toNat + (requested nbytes).toNat < 2 ^ 64) :
    (callocAligned malloc nbytes m).1 = (mallocAligned malloc nbytes m).1 ∧
    (∀ x, InRange x (mallocAligned malloc nbytes m).1 nbytes.toNat → (callocAligned malloc nbytes m).2 x = 0) ∧
    ∀ x, ¬ InRange x (mallocAligned malloc nbytes m).1 nbytes.toNat →
      ¬ InRange x ((mallocAligned malloc nbytes m).1 - 8) 8 → (callocAligned malloc nbytes m).2 x = m x := by
  obtain ⟨-, r0, r1, r2, r3, r4⟩ := C54_malloc malloc nbytes m hn h0 hb
  unfold callocAligned
  dsimp only
  rw [if_pos r0]
  dsimp only
  generalize hr : mallocAligned malloc nbytes m = r at *
  refine ⟨rfl, ?_, ?_⟩
  · intro x hx
    unfold memset0
    rw [if_pos]
    unfold InRange at hx
    rw [BitVec.toNat_sub]; omega
  · intro x hx hx8
    unfold memset0
    rw [if_neg, r4 x hx8]
    intro hlt
    apply hx
    unfold InRange
    rw [toNat_requested hn] at *
    rw [BitVec.toNat_sub] at hlt
    omega

/-- "For every size" is false: for the largest size the request wraps around to 22 bytes, and the result of `nbytes` bytes
does not fit into any such block. -/
theorem C54_negation : (requested (-1)).toNat = 22 ∧
    ∀ malloc : Addr → Addr, ∀ m : Bytes, malloc (requested (-1)) ≠ 0 →
      ¬ ((malloc (requested (-1))).toNat ≤ (mallocAligned malloc (-1) m).1.toNat ∧
        (mallocAligned malloc (-1) m).1.toNat + (-1 : Addr).toNat ≤ (malloc (requested (-1))).toNat + 22) := by
  refine ⟨by decide, ?_⟩
  intro malloc m h0 h
  have e : (-1 : Addr).toNat = 2 ^ 64 - 1 := by decide
  rw [e] at h
  omega

/-! ## The allocator -/

/-- `allocate(n)` for `n` at most `max_size()`: the size in bytes does not wrap around, so that (with room for the
bookkeeping) the returned block of C54 has place for `n` objects; a failure of `malloc` is reported. -/
theorem C67_allocate (malloc : Addr → Addr) (size n : Addr) (m : Bytes) (hs : size ≠ 0)
    (hn : n.toNat ≤ (maxSize size).toNat) :
    (n * size).toNat = n.toNat * size.toNat ∧
    (malloc (requested (n * size)) = 0 → allocate malloc size n m = none) ∧
    (n.toNat * size.toNat + 23 < 2 ^ 64 → malloc (requested (n * size)) ≠ 0 →
      (malloc (requested (n * size))).toNat + (requested (n * size)).toNat < 2 ^ 64 →
      ∃ r, allocate malloc size n m = some r ∧ r.1.toNat % 16 = 0 ∧
        (malloc (requested (n * size))).toNat + 8 ≤ r.1.toNat ∧
        r.1.toNat + n.toNat * size.toNat ≤ (malloc (requested (n * size))).toNat + (requested (n * size)).toNat) := by
  have hsp : 0 < size.toNat := by
    rcases Nat.eq_zero_or_pos size.toNat with h | h
    · exact absurd (BitVec.eq_of_toNat_eq h) hs
    · exact h
  have hmul : (n * size).toNat = n.toNat * size.toNat := by
    unfold maxSize at hn
    rw [BitVec.toNat_udiv, show (-1 : Addr).toNat = 2 ^ 64 - 1 from by decide] at hn
    have := Nat.mul_le_of_le_div _ _ _ hn
    rw [BitVec.toNat_mul, Nat.mod_eq_of_lt (by omega)]
  refine ⟨hmul, ?_, ?_⟩
  · intro h0
    unfold allocate mallocAlignedT
    rw [C54_null malloc _ m h0]
    rfl
  · intro h1 h2 h3
    rw [← hmul] at h1 ⊢
    obtain ⟨r0, r1, r2, r3, r4, -⟩ := C54_malloc malloc (n * size) m h1 h2 h3
    refine ⟨mallocAligned malloc (n * size) m, ?_, r0, by omega, r4⟩
    unfold allocate mallocAlignedT
    dsimp only
    rw [if_neg r1]

/-- `allocate(max_size())` of `float` requests 19 bytes. -/
theorem C67_negation_size : (requested (maxSize 4 * 4)).toNat = 19 ∧ (maxSize 4 * 4 : Addr).toNat = 2 ^ 64 - 4 := by
  decide

/-- The allocator requirements ask that equal allocators can free each other's memory, and that a copy is equal to the
original; here no allocator is equal to any other, not even to itself. -/
theorem C67_negation_equal : allocEq = false ∧ allocNe = true := ⟨rfl, rfl⟩

/-! ## The smart pointer -/

/-- The blocks that `malloc_aligned` returned and that have not been handed over to a smart pointer. -/
def nextLoose (loose : Nat → Bool) : Op → Nat → Bool
  | .malloc p => fun q => if q = p then true else loose q
  | .create _ p => fun q => if q = p then false else loose q
  | .reset _ p => fun q => if q = p then false else loose q
  | _ => loose

/-- The rules of ownership: `malloc` returns fresh addresses other than null, a smart pointer is given null or a block that
has not been handed over before, objects are created once and used while they exist.  Copies are excluded. -/
def Legal (h : Heap) (loose : Nat → Bool) : Op → Prop
  | .malloc p => p ≠ 0 ∧ h.live p = false
  | .create i p => h.obj i = none ∧ (p = 0 ∨ loose p = true)
  | .reset i p => h.obj i ≠ none ∧ (p = 0 ∨ loose p = true)
  | .destroy i => h.obj i ≠ none
  | .swap i j => h.obj i ≠ none ∧ h.obj j ≠ none
  | .copy _ _ => False

/-- Every step of the history obeys the rules, in the state that it finds. -/
def LegalRun (managed : Bool) (h : Heap) (loose : Nat → Bool) : List Op → Prop
  | [] => True
  | op :: ops => Legal h loose op ∧ ∀ h', step managed h op = .ok h' → LegalRun managed h' (nextLoose loose op) ops

/-- Every block held by an object is allocated and held by that object only; every allocated block is held or loose. -/
structure Inv (h : Heap) (loose : Nat → Bool) : Prop where
  held : ∀ i p, h.obj i = some p → p ≠ 0 → h.live p = true ∧ loose p = false
  once : ∀ i j p, h.obj i = some p → h.obj j = some p → p ≠ 0 → i = j
  all : ∀ p, h.live p = true → loose p = true ∨ ∃ i, h.obj i = some p
  loose : ∀ p, loose p = true → h.live p = true
  null : h.live 0 = false

theorem get_ok {h : Heap} {i : Nat} (hi : h.obj i ≠ none) : ∃ p, h.obj i = some p ∧ h.get i = .ok p := by
  cases hp : h.obj i with
  | none => exact absurd hp hi
  | some p => exact ⟨p, rfl, by unfold Heap.get; rw [hp]⟩

/-- Releasing what an object holds. -/
theorem release_ok {h : Heap} {L : Nat → Bool} (I : Inv h L) {i p : Nat} (hp : h.obj i = some p) :
    ∃ h', release true p h = .ok h' ∧ h'.obj = h.obj ∧
      ∀ q, h'.live q = (if q = p ∧ p ≠ 0 then false else h.live q) := by
  unfold release free
  by_cases h0 : p = 0
  · subst h0
    exact ⟨h, by simp, rfl, fun q => by simp⟩
  · have hl := (I.held i p hp h0).1
    refine ⟨{ h with live := fun q => if q = p then false else h.live q }, ?_, rfl, fun q => ?_⟩
    · rw [hl]; simp [h0]
    · by_cases hq : q = p <;> simp [hq, h0]

theorem Inv.ne_zero {h : Heap} {L : Nat → Bool} (I : Inv h L) {p : Nat} (hp : h.live p = true) : p ≠ 0 := by
  intro e; rw [e, I.null] at hp; cases hp

theorem malloc_inv {h : Heap} {L : Nat → Bool} (I : Inv h L) {p : Nat} (h0 : p ≠ 0) (hf : h.live p = false) :
    Inv { h with live := fun q => if q = p then true else h.live q } (fun q => if q = p then true else L q) := by
  constructor
  · intro i q hq hq0
    dsimp only at hq ⊢
    obtain ⟨a, b⟩ := I.held i q hq hq0
    have hne : q ≠ p := by intro e; subst e; rw [hf] at a; cases a
    rw [if_neg hne, if_neg hne]
    exact ⟨a, b⟩
  · exact I.once
  · intro q hq
    dsimp only at hq ⊢
    by_cases e : q = p
    · left; rw [if_pos e]
    · rw [if_neg e] at hq ⊢; exact I.all q hq
  · intro q hq
    dsimp only at hq ⊢
    by_cases e : q = p
    · rw [if_pos e]
    · rw [if_neg e] at hq ⊢; exact I.loose q hq
  · dsimp only
    rw [if_neg (Ne.symm h0)]; exact I.null

theorem create_inv {h : Heap} {L : Nat → Bool} (I : Inv h L) {i p : Nat} (hn : h.obj i = none)
    (hp : p = 0 ∨ L p = true) : Inv (h.set i (some p)) (fun q => if q = p then false else L q) := by
  unfold Heap.set
  constructor
  · intro k q hq hq0
    dsimp only at hq ⊢
    by_cases e : k = i
    · rw [if_pos e] at hq
      cases hq
      rcases hp with hp | hp
      · exact absurd hp hq0
      · exact ⟨I.loose _ hp, by rw [if_pos rfl]⟩
    · rw [if_neg e] at hq
      obtain ⟨a, b⟩ := I.held k q hq hq0
      refine ⟨a, ?_⟩
      by_cases e2 : q = p
      · rw [if_pos e2]
      · rw [if_neg e2]; exact b
  · intro k l q hk hl' hq0
    dsimp only at hk hl'
    have held_ne : ∀ k', h.obj k' = some q → p ≠ q := by
      intro k' hk' e
      have := (I.held k' q hk' hq0).2
      rcases hp with hp | hp
      · exact hq0 (e ▸ hp)
      · rw [← e, hp] at this; cases this
    by_cases e1 : k = i <;> by_cases e2 : l = i
    · rw [e1, e2]
    · rw [if_pos e1] at hk; rw [if_neg e2] at hl'
      cases hk; exact absurd rfl (held_ne l hl')
    · rw [if_neg e1] at hk; rw [if_pos e2] at hl'
      cases hl'; exact absurd rfl (held_ne k hk)
    · rw [if_neg e1] at hk; rw [if_neg e2] at hl'
      exact I.once k l q hk hl' hq0
  · intro q hq
    dsimp only at hq ⊢
    by_cases e : q = p
    · right; exact ⟨i, by rw [if_pos rfl, e]⟩
    · rw [if_neg e]
      rcases I.all q hq with a | ⟨k, hk⟩
      · exact .inl a
      · right
        refine ⟨k, ?_⟩
        rw [if_neg]; · exact hk
        intro e2; rw [e2, hn] at hk; cases hk
  · intro q hq
    dsimp only at hq ⊢
    by_cases e : q = p
    · rw [if_pos e] at hq; cases hq
    · rw [if_neg e] at hq; exact I.loose q hq
  · exact I.null

theorem destroy_inv {h h' : Heap} {L : Nat → Bool} (I : Inv h L) {i p : Nat} (hp : h.obj i = some p)
    (ho : h'.obj = h.obj) (hlv : ∀ q, h'.live q = (if q = p ∧ p ≠ 0 then false else h.live q)) :
    Inv (h'.set i none) L := by
  unfold Heap.set
  constructor
  · intro k q hq hq0
    dsimp only at hq ⊢
    by_cases e : k = i
    · rw [if_pos e] at hq; cases hq
    · rw [if_neg e, ho] at hq
      obtain ⟨a, b⟩ := I.held k q hq hq0
      refine ⟨?_, b⟩
      rw [hlv, if_neg]; · exact a
      rintro ⟨e2, -⟩
      exact e (I.once k i q hq (e2 ▸ hp) hq0)
  · intro k l q hk hl' hq0
    dsimp only at hk hl'
    by_cases e1 : k = i
    · rw [if_pos e1] at hk; cases hk
    · by_cases e2 : l = i
      · rw [if_pos e2] at hl'; cases hl'
      · rw [if_neg e1, ho] at hk; rw [if_neg e2, ho] at hl'
        exact I.once k l q hk hl' hq0
  · intro q hq
    dsimp only at hq ⊢
    rw [hlv] at hq
    by_cases c : q = p ∧ p ≠ 0
    · rw [if_pos c] at hq; cases hq
    · rw [if_neg c] at hq
      rcases I.all q hq with a | ⟨k, hk⟩
      · exact .inl a
      · by_cases hki : k = i
        · rw [hki, hp] at hk
          cases hk
          exact absurd ⟨rfl, I.ne_zero hq⟩ c
        · right; exact ⟨k, by rw [if_neg hki, ho]; exact hk⟩
  · intro q hq
    dsimp only at hq ⊢
    rw [hlv, if_neg]; · exact I.loose q hq
    rintro ⟨e2, hz⟩
    have := (I.held i p hp hz).2
    rw [← e2, hq] at this; cases this
  · dsimp only
    rw [hlv]; split
    · rfl
    · exact I.null

theorem swap_inv {h : Heap} {L : Nat → Bool} (I : Inv h L) {i j p q : Nat} (hi : h.obj i = some p)
    (hj : h.obj j = some q) : Inv ((h.set i (some q)).set j (some p)) L := by
  have key : ∀ k, ((h.set i (some q)).set j (some p)).obj k = h.obj (if k = i then j else if k = j then i else k) := by
    intro k
    unfold Heap.set
    dsimp only
    by_cases e1 : k = j
    · rw [if_pos e1]
      by_cases e2 : k = i
      · rw [if_pos e2, hj, ← hj, ← e1, e2, hi]
      · rw [if_neg e2, if_pos e1, hi]
    · rw [if_neg e1]
      by_cases e2 : k = i
      · rw [if_pos e2, if_pos e2, hj]
      · rw [if_neg e2, if_neg e2, if_neg e1]
  have inj : ∀ k l : Nat, (if k = i then j else if k = j then i else k) = (if l = i then j else if l = j then i else l) →
      k = l := by
    intro k l
    split <;> split <;> (try split) <;> (try split) <;> intro e <;> omega
  have surj : ∀ k : Nat, ∃ k', (if k' = i then j else if k' = j then i else k') = k := by
    intro k
    by_cases e1 : k = i
    · refine ⟨j, ?_⟩
      split
      · omega
      · rw [if_pos rfl, e1]
    · by_cases e2 : k = j
      · exact ⟨i, by rw [if_pos rfl, e2]⟩
      · exact ⟨k, by rw [if_neg e1, if_neg e2]⟩
  constructor
  · intro k r hr; rw [key] at hr; exact I.held _ r hr
  · intro k l r hk hl h0
    rw [key] at hk hl
    exact inj k l (I.once _ _ r hk hl h0)
  · intro r hr
    rcases I.all r hr with a | ⟨k, hk⟩
    · exact .inl a
    · obtain ⟨k', hk'⟩ := surj k
      exact .inr ⟨k', by rw [key, hk', hk]⟩
  · exact I.loose
  · exact I.null

theorem set_set (h : Heap) (i : Nat) (a b : Option Nat) : (h.set i a).set i b = h.set i b := by
  unfold Heap.set
  congr 1
  funext k
  dsimp only
  split <;> rfl

theorem step_inv {h : Heap} {L : Nat → Bool} (I : Inv h L) {op : Op} (hl : Legal h L op) :
    ∃ h', step true h op = .ok h' ∧ Inv h' (nextLoose L op) := by
  cases op with
  | malloc p => exact ⟨_, rfl, malloc_inv I hl.1 hl.2⟩
  | create i p => exact ⟨_, rfl, create_inv I hl.1 hl.2⟩
  | copy i j => exact hl.elim
  | destroy i =>
    obtain ⟨p, hp, hg⟩ := get_ok hl
    obtain ⟨h', hr, ho, hlv⟩ := release_ok I hp
    refine ⟨h'.set i none, ?_, destroy_inv I hp ho hlv⟩
    simp only [step]
    rw [hg]
    change (release true p h >>= fun h => pure (h.set i none)) = _
    rw [hr]; rfl
  | reset i p =>
    obtain ⟨old, hp, hg⟩ := get_ok hl.1
    obtain ⟨h', hr, ho, hlv⟩ := release_ok I hp
    refine ⟨h'.set i (some p), ?_, ?_⟩
    · simp only [step]
      rw [hg]
      change (release true old h >>= fun h => pure (h.set i (some p))) = _
      rw [hr]; rfl
    · have J := create_inv (destroy_inv I hp ho hlv) (i := i) (p := p) (by unfold Heap.set; simp) hl.2
      rw [set_set] at J
      exact J
  | swap i j =>
    obtain ⟨p, hp, hg⟩ := get_ok hl.1
    obtain ⟨q, hq, hg2⟩ := get_ok hl.2
    refine ⟨_, ?_, swap_inv I hp hq⟩
    simp only [step]
    rw [hg, hg2]; rfl

/-- The loose blocks at the end of a history. -/
def looseAfter (loose : Nat → Bool) : List Op → Nat → Bool
  | [] => loose
  | op :: ops => looseAfter (nextLoose loose op) ops

theorem run_inv (ops : List Op) {h : Heap} {L : Nat → Bool} (I : Inv h L) (hl : LegalRun true h L ops) :
    ∃ h', run true h ops = .ok h' ∧ Inv h' (looseAfter L ops) := by
  induction ops generalizing h L with
  | nil => exact ⟨h, rfl, I⟩
  | cons op ops ih =>
    obtain ⟨h1, hs, I1⟩ := step_inv I hl.1
    obtain ⟨h2, hr, I2⟩ := ih I1 (hl.2 h1 hs)
    refine ⟨h2, ?_, I2⟩
    simp only [run]
    rw [hs]
    exact hr

/-- For every history that obeys the rules of ownership, the smart pointers never free a block twice nor free anything
else than an allocated block; the blocks they hold are allocated, and no two of them hold the same one; when all of
them are gone, exactly the blocks that were never handed over are still allocated. -/
theorem C68_ownership (ops : List Op) (hl : LegalRun true .empty (fun _ => false) ops) :
    ∃ h, run true .empty ops = .ok h ∧
      (∀ i p, h.obj i = some p → p ≠ 0 → h.live p = true) ∧
      (∀ i j p, h.obj i = some p → h.obj j = some p → p ≠ 0 → i = j) ∧
      ((∀ i, h.obj i = none) → h.live = looseAfter (fun _ => false) ops) := by
  have I0 : Inv .empty (fun _ => false) := by
    constructor <;> simp [Heap.empty]
  obtain ⟨h, hr, I⟩ := run_inv ops I0 hl
  refine ⟨h, hr, fun i p a b => (I.held i p a b).1, I.once, ?_⟩
  intro hn
  funext p
  cases hp : h.live p with
  | true =>
    rcases I.all p hp with a | ⟨i, hi⟩
    · exact a.symm
    · rw [hn i] at hi; cases hi
  | false =>
    cases hq : looseAfter (fun _ => false) ops p with
    | false => rfl
    | true => rw [I.loose p hq] at hp; cases hp

/-- A legal history: two blocks, two smart pointers, reset, swap, both destroyed. -/
example : LegalRun true .empty (fun _ => false)
    [.malloc 16, .create 0 16, .malloc 32, .create 1 0, .reset 1 32, .swap 0 1, .malloc 48, .reset 0 48, .destroy 0,
      .destroy 1] := by
  simp [LegalRun, Legal, nextLoose, step, Heap.empty, Heap.set, Heap.get, release, free, bind, Except.bind, pure,
    Except.pure]

/-- `release()` does not exist: an unmanaged smart pointer never frees, whatever the history. -/
theorem C68_unmanaged (ops : List Op) (h h' : Heap) (hr : run false h ops = .ok h') (p : Nat)
    (hp : h.live p = true) : h'.live p = true := by
  induction ops generalizing h with
  | nil => cases hr; exact hp
  | cons op ops ih =>
    simp only [run] at hr
    cases hs : step false h op with
    | error e => rw [hs] at hr; cases hr
    | ok h1 =>
      rw [hs] at hr
      refine ih h1 hr ?_
      cases op with
      | malloc q =>
        cases hs
        dsimp only
        split
        · rfl
        · exact hp
      | create i q => cases hs; exact hp
      | copy i j =>
        simp only [step] at hs
        cases hg : h.get j with
        | error e => rw [hg] at hs; cases hs
        | ok q => rw [hg] at hs; cases hs; exact hp
      | destroy i =>
        simp only [step] at hs
        cases hg : h.get i with
        | error e => rw [hg] at hs; cases hs
        | ok q => rw [hg] at hs; cases hs; exact hp
      | reset i q =>
        simp only [step] at hs
        cases hg : h.get i with
        | error e => rw [hg] at hs; cases hs
        | ok q => rw [hg] at hs; cases hs; exact hp
      | swap i j =>
        simp only [step] at hs
        cases hg : h.get i with
        | error e => rw [hg] at hs; cases hs
        | ok q =>
          rw [hg] at hs
          cases hg2 : h.get j with
          | error e => rw [hg2] at hs; cases hs
          | ok q => rw [hg2] at hs; cases hs; exact hp

/-- The result of a history: the fault, if there was one. -/
def faultOf (r : Except HeapFault Heap) : Option HeapFault :=
  match r with
  | .ok _ => none
  | .error e => some e

/-- The class does not keep its users from breaking the rules: a copy frees the block twice, and so does resetting a
pointer to what it holds already. -/
theorem C68_negation :
    faultOf (run true .empty [.malloc 16, .create 0 16, .copy 1 0, .destroy 1, .destroy 0]) = some (.badFree 16) ∧
    faultOf (run true .empty [.malloc 16, .create 0 16, .reset 0 16, .destroy 0]) = some (.badFree 16) := by
  decide

/-- The hypotheses of the allocation theorems hold for a block at 0x1004. -/
example : ((100 : Addr).toNat + 23 < 2 ^ 64) ∧ (0x1004 : Addr) ≠ 0 ∧
    (0x1004 : Addr).toNat + (requested 100).toNat < 2 ^ 64 ∧
    (mallocAligned (fun _ => 0x1004) 100 (fun _ => 7)).1 = 0x1010 ∧
    freeAligned (mallocAligned (fun _ => 0x1004) 100 (fun _ => 7)).2 0x1010 = 0x1004 := by
  decide

end Nova.Alloc
