import Mathlib.Data.Real.Basic
import Mathlib.Tactic.Linarith
import Mathlib.Tactic.Ring
import Mathlib.Tactic.NormNum
import Mathlib.Tactic.FieldSimp
import Mathlib.Tactic.Positivity

/-!
# Polynomials that are nonnegative on an interval

A checker with rational arithmetic and its proof of correctness.  `check p l h fuel` bisects `[l, h]` until the
Taylor expansion at the midpoint of every piece shows that the polynomial is nonnegative there.
-/

namespace Nova.Poly

/-- The value of a polynomial with rational coefficients, lowest degree first. -/
def eval (p : List ℚ) (x : ℝ) : ℝ := p.foldr (fun a r => (a : ℝ) + x * r) 0

@[simp] theorem eval_nil (x : ℝ) : eval [] x = 0 := rfl
@[simp] theorem eval_cons (a : ℚ) (p : List ℚ) (x : ℝ) : eval (a :: p) x = a + x * eval p x := rfl

/-- The sum. -/
def add : List ℚ → List ℚ → List ℚ
  | [], q => q
  | p, [] => p
  | a :: p, b :: q => (a + b) :: add p q

theorem eval_add (p q : List ℚ) (x : ℝ) : eval (add p q) x = eval p x + eval q x := by
  induction p generalizing q with
  | nil => simp [add]
  | cons a p ih =>
    cases q with
    | nil => simp [add]
    | cons b q =>
      simp only [add, eval_cons, ih]; push_cast; ring

theorem eval_map_mul (m : ℚ) (p : List ℚ) (x : ℝ) : eval (p.map (m * ·)) x = m * eval p x := by
  induction p with
  | nil => simp
  | cons a p ih => simp only [List.map_cons, eval_cons, ih]; push_cast; ring

/-- The coefficients of `p (m + t)`. -/
def shift (m : ℚ) : List ℚ → List ℚ
  | [] => []
  | a :: p => let q := shift m p
    add (a :: q) (q.map (m * ·))

theorem eval_shift (m : ℚ) (p : List ℚ) (t : ℝ) : eval (shift m p) t = eval p (m + t) := by
  induction p with
  | nil => rfl
  | cons a p ih =>
    simp only [shift, eval_add, eval_cons, eval_map_mul, ih]; ring

/-- A bound of `|p t|` for `|t| ≤ r`. -/
def bound (r : ℚ) (p : List ℚ) : ℚ := p.foldr (fun a b => |a| + r * b) 0

theorem bound_nonneg {r : ℚ} (hr : 0 ≤ r) (p : List ℚ) : 0 ≤ bound r p := by
  induction p with
  | nil => exact le_rfl
  | cons a p ih =>
    have : bound r (a :: p) = |a| + r * bound r p := rfl
    rw [this]; positivity

theorem abs_eval_le {r : ℚ} (hr : 0 ≤ r) (p : List ℚ) {t : ℝ} (ht : |t| ≤ r) :
    |eval p t| ≤ bound r p := by
  induction p with
  | nil => simp [bound]
  | cons a p ih =>
    have : bound r (a :: p) = |a| + r * bound r p := rfl
    rw [this, eval_cons]
    push_cast
    refine (abs_add_le _ _).trans (add_le_add le_rfl ?_)
    rw [abs_mul]
    exact mul_le_mul ht ih (abs_nonneg _) (by exact_mod_cast hr)

/-- One piece: the interval with midpoint `m` and radius `r`. -/
def piece (p : List ℚ) (m r : ℚ) : Bool :=
  match shift m p with
  | [] => true
  | b :: q => decide (r * bound r q ≤ b)

theorem piece_sound {p : List ℚ} {m r : ℚ} (h : piece p m r = true) {x : ℝ} (hx : |x - m| ≤ r) :
    0 ≤ eval p x := by
  have hr : 0 ≤ r := by
    have := (abs_nonneg _).trans hx; exact_mod_cast this
  have e : eval p x = eval (shift m p) (x - m) := by rw [eval_shift]; congr 1; ring
  rw [e]
  unfold piece at h
  cases hs : shift m p with
  | nil => simp
  | cons b q =>
    rw [hs] at h
    have h' : (r : ℝ) * bound r q ≤ b := by exact_mod_cast of_decide_eq_true h
    rw [eval_cons]
    have h1 := abs_eval_le hr q hx
    have h2 : |(x - m) * eval q (x - m)| ≤ r * bound r q := by
      rw [abs_mul]; exact mul_le_mul hx h1 (abs_nonneg _) (by exact_mod_cast hr)
    have := (abs_le.mp h2).1
    linarith

/-- Bisection. -/
def check (p : List ℚ) : Nat → ℚ → ℚ → Bool
  | 0, l, h => piece p ((l + h) / 2) ((h - l) / 2)
  | n + 1, l, h => piece p ((l + h) / 2) ((h - l) / 2) ||
      (check p n l ((l + h) / 2) && check p n ((l + h) / 2) h)

theorem check_sound {p : List ℚ} {n : Nat} {l h : ℚ} (hc : check p n l h = true) {x : ℝ}
    (h1 : (l : ℝ) ≤ x) (h2 : x ≤ h) : 0 ≤ eval p x := by
  have one : ∀ {l h : ℚ}, piece p ((l + h) / 2) ((h - l) / 2) = true → (l : ℝ) ≤ x → x ≤ h →
      0 ≤ eval p x := by
    intro l h hp h1 h2
    refine piece_sound hp ?_
    push_cast
    rw [abs_le]; constructor <;> linarith
  induction n generalizing l h with
  | zero => exact one hc h1 h2
  | succ n ih =>
    unfold check at hc
    rcases Bool.or_eq_true _ _ ▸ hc with hc | hc
    · exact one hc h1 h2
    · obtain ⟨ha, hb⟩ := Bool.and_eq_true _ _ ▸ hc
      rcases le_total x (((l + h) / 2 : ℚ) : ℝ) with hm | hm
      · exact ih ha h1 hm
      · exact ih hb hm h2

end Nova.Poly
