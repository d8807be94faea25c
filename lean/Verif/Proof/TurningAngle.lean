import Verif.Model.TurningAngle
import Verif.Spec.TurningAngle
import Verif.Proof.BezierEval
import Mathlib.Topology.Order.IntermediateValue
import Mathlib.Analysis.SpecialFunctions.Trigonometric.Angle
import Mathlib.Topology.Instances.Real.Lemmas

/-! # Angles between planar vectors -/

set_option linter.unusedSectionVars false
set_option linter.unusedSimpArgs false

namespace NS
namespace Turning

open Outcome Finset Polynomial

/-- Inner product in the plane. -/
def inner2 (a b : ℝ × ℝ) : ℝ := a.1 * b.1 + a.2 * b.2

/-- Complex number of a vector. -/
def toC (a : ℝ × ℝ) : ℂ := ⟨a.1, a.2⟩

theorem turn_smul (r s a b : ℝ) (hr : 0 < r) (hs : 0 < s) (h1 : -Real.pi < b - a)
    (h2 : b - a ≤ Real.pi) : turn (r • dir a) (s • dir b) = b - a := by
  unfold turn
  have := Complex.arg_mul_cos_add_sin_mul_I (r := r * s) (mul_pos hr hs) (θ := b - a) ⟨h1, h2⟩
  rw [← Complex.ofReal_cos, ← Complex.ofReal_sin] at this
  rw [← this]
  congr 1
  apply Complex.ext
  · rw [Complex.re_ofReal_mul, Complex.add_re, Complex.ofReal_re, Complex.re_ofReal_mul, Complex.I_re,
      Real.cos_sub]
    simp [dir]
    ring
  · rw [Complex.im_ofReal_mul, Complex.add_im, Complex.ofReal_im, Complex.im_ofReal_mul, Complex.I_im,
      Real.sin_sub]
    simp [dir]
    ring

/-- Every vector has polar coordinates relative to a given direction. -/
theorem exists_polar (w v : ℝ × ℝ) (hv : v ≠ 0) (r a : ℝ) (hr : 0 < r) (hwa : w = r • dir a) :
    ∃ s : ℝ, 0 < s ∧ v = s • dir (a + turn w v) := by
  set z : ℂ := ⟨w.1 * v.1 + w.2 * v.2, w.1 * v.2 - w.2 * v.1⟩ with hz
  have e1 := Complex.norm_mul_cos_add_sin_mul_I z
  have t : turn w v = z.arg := rfl
  have c1 : ‖z‖ * Real.cos z.arg = w.1 * v.1 + w.2 * v.2 := by
    rw [Complex.norm_mul_cos_arg]
  have c2 : ‖z‖ * Real.sin z.arg = w.1 * v.2 - w.2 * v.1 := by
    rw [Complex.norm_mul_sin_arg]
  have w1 : w.1 = r * Real.cos a := by rw [hwa]; simp [dir]
  have w2 : w.2 = r * Real.sin a := by rw [hwa]; simp [dir]
  have hcs := Real.cos_sq_add_sin_sq a
  have hzn : z ≠ 0 := by
    intro h
    have g1 : w.1 * v.1 + w.2 * v.2 = 0 := by have := congrArg Complex.re h; simpa [hz] using this
    have g2 : w.1 * v.2 - w.2 * v.1 = 0 := by have := congrArg Complex.im h; simpa [hz] using this
    apply hv
    rw [w1, w2] at g1 g2
    have k1 : Real.cos a * v.1 + Real.sin a * v.2 = 0 := by
      have : r * (Real.cos a * v.1 + Real.sin a * v.2) = 0 := by linarith
      exact (mul_eq_zero.1 this).resolve_left hr.ne'
    have k2 : Real.cos a * v.2 - Real.sin a * v.1 = 0 := by
      have : r * (Real.cos a * v.2 - Real.sin a * v.1) = 0 := by linarith
      exact (mul_eq_zero.1 this).resolve_left hr.ne'
    ext
    · show v.1 = 0
      linear_combination (-v.1) * hcs + Real.cos a * k1 - Real.sin a * k2
    · show v.2 = 0
      linear_combination (-v.2) * hcs + Real.sin a * k1 + Real.cos a * k2
  refine ⟨‖z‖ / r, div_pos (norm_pos_iff.2 hzn) hr, ?_⟩
  rw [t]
  have hr' := hr.ne'
  ext
  · simp only [dir, Prod.smul_fst, smul_eq_mul, Real.cos_add]
    have : ‖z‖ / r * (Real.cos a * Real.cos z.arg - Real.sin a * Real.sin z.arg)
      = (Real.cos a * (‖z‖ * Real.cos z.arg) - Real.sin a * (‖z‖ * Real.sin z.arg)) / r := by ring
    rw [this, c1, c2, eq_div_iff hr', w1, w2]
    linear_combination (-v.1 * r) * hcs
  · simp only [dir, Prod.smul_snd, smul_eq_mul, Real.sin_add]
    have : ‖z‖ / r * (Real.sin a * Real.cos z.arg + Real.cos a * Real.sin z.arg)
      = (Real.sin a * (‖z‖ * Real.cos z.arg) + Real.cos a * (‖z‖ * Real.sin z.arg)) / r := by ring
    rw [this, c1, c2, eq_div_iff hr', w1, w2]
    linear_combination (-v.2 * r) * hcs

theorem exists_angle (v : ℝ × ℝ) (hv : v ≠ 0) : ∃ r a : ℝ, 0 < r ∧ v = r • dir a := by
  obtain ⟨s, h1, h2⟩ := exists_polar (dir 0) v hv 1 0 one_pos (by simp)
  exact ⟨s, _, h1, h2⟩

/-- The angle of `v` near the angle of `w`. -/
noncomputable def ang (a : ℝ) (v : ℝ × ℝ) : ℝ := a + turn (dir a) v

theorem dir_ne (a : ℝ) : dir a ≠ 0 := by
  intro h
  have h1 : Real.cos a = 0 := congrArg Prod.fst h
  have h2 : Real.sin a = 0 := congrArg Prod.snd h
  have := Real.cos_sq_add_sin_sq a
  rw [h1, h2] at this; norm_num at this

theorem ang_spec (a : ℝ) {v : ℝ × ℝ} (hv : v ≠ 0) : ∃ s : ℝ, 0 < s ∧ v = s • dir (ang a v) :=
  exists_polar (dir a) v hv 1 a one_pos (by simp)

theorem ang_smul (a : ℝ) {c : ℝ} (hc : 0 < c) (v : ℝ × ℝ) : ang a (c • v) = ang a v := by
  unfold ang turn
  congr 1
  rw [← Complex.arg_real_mul ⟨(dir a).1 * v.1 + (dir a).2 * v.2, _⟩ hc]
  congr 1
  apply Complex.ext <;> simp <;> ring

theorem ang_near (a : ℝ) {v : ℝ × ℝ} (h : 0 < inner2 (dir a) v) : |ang a v - a| < Real.pi / 2 := by
  unfold ang
  rw [add_sub_cancel_left]
  exact Complex.abs_arg_lt_pi_div_two_iff.2 (Or.inl h)

theorem ang_cont (a : ℝ) {d : ℝ → ℝ × ℝ} {s : Set ℝ} (hd : ContinuousOn d s)
    (h : ∀ t ∈ s, 0 < inner2 (dir a) (d t) ∨ (dir a).1 * (d t).2 - (dir a).2 * (d t).1 ≠ 0) :
    ContinuousOn (fun t => ang a (d t)) s := by
  unfold ang
  refine continuousOn_const.add ?_
  intro t ht
  unfold turn
  have hc : ContinuousWithinAt (fun t => (⟨(dir a).1 * (d t).1 + (dir a).2 * (d t).2,
      (dir a).1 * (d t).2 - (dir a).2 * (d t).1⟩ : ℂ)) s t := by
    have e : (fun t => (⟨(dir a).1 * (d t).1 + (dir a).2 * (d t).2,
      (dir a).1 * (d t).2 - (dir a).2 * (d t).1⟩ : ℂ)) = fun t =>
        ((((dir a).1 * (d t).1 + (dir a).2 * (d t).2 : ℝ) : ℂ) +
          ((((dir a).1 * (d t).2 - (dir a).2 * (d t).1 : ℝ) : ℂ)) * Complex.I) := by
      funext t; apply Complex.ext <;> simp
    rw [e]
    have h1 : ContinuousWithinAt (fun t => (d t).1) s t := continuous_fst.continuousAt.comp_continuousWithinAt (hd t ht)
    have h2 : ContinuousWithinAt (fun t => (d t).2) s t := continuous_snd.continuousAt.comp_continuousWithinAt (hd t ht)
    refine ContinuousWithinAt.add ?_ (ContinuousWithinAt.mul ?_ continuousWithinAt_const)
    · exact Complex.continuous_ofReal.continuousAt.comp_continuousWithinAt
        ((continuousWithinAt_const.mul h1).add (continuousWithinAt_const.mul h2))
    · exact Complex.continuous_ofReal.continuousAt.comp_continuousWithinAt
        ((continuousWithinAt_const.mul h2).sub (continuousWithinAt_const.mul h1))
  exact (Complex.continuousAt_arg (h t ht)).comp_continuousWithinAt hc

theorem ne_of_inner2 {w v : ℝ × ℝ} (h : 0 < inner2 w v) : v ≠ 0 := by
  rintro rfl; simp [inner2] at h

/-- A vector field in an open half plane. -/
theorem angle_of_half (a : ℝ) {d : ℝ → ℝ × ℝ} {t0 t1 : ℝ} (hd : ContinuousOn d (Set.Icc t0 t1))
    (h : ∀ t, t0 ≤ t → t ≤ t1 → 0 < inner2 (dir a) (d t)) : Angle d t0 t1 (fun t => ang a (d t)) :=
  ⟨ang_cont a hd (fun t ht => Or.inl (h t ht.1 ht.2)), fun t g1 g2 => ang_spec a (ne_of_inner2 (h t g1 g2))⟩

/-! ### Polygons -/

theorem polygonTurning_arr (n : ℕ) (P : ℕ → ℝ × ℝ) :
    polygonTurning (arr n P) = ok (∑ j ∈ range (n - 2), turn (P (j + 1) - P j) (P (j + 2) - P (j + 1))) := by
  unfold polygonTurning
  rw [arr_length]
  refine loop_eq (fun m => ∑ j ∈ range m, turn (P (j + 1) - P j) (P (j + 2) - P (j + 1))) (n - 2) _ ?_
  intro i hi
  rw [rd_arr (by omega), ok_bind, rd_arr (by omega), ok_bind, rd_arr (by omega), ok_bind, sum_range_succ]
  rfl

/-- Edges in an open half plane: the angles telescope. -/
theorem sum_turn_half (a : ℝ) (v : ℕ → ℝ × ℝ) (m : ℕ) (h : ∀ j ≤ m, 0 < inner2 (dir a) (v j)) :
    ∑ j ∈ range m, turn (v j) (v (j + 1)) = ang a (v m) - ang a (v 0) := by
  induction m with
  | zero => simp
  | succ m ih =>
    rw [sum_range_succ, ih (fun j hj => h j (by omega))]
    have h1 := h m (by omega)
    have h2 := h (m + 1) le_rfl
    have n1 := abs_lt.1 (ang_near a h1)
    have n2 := abs_lt.1 (ang_near a h2)
    obtain ⟨r, hr, e1⟩ := ang_spec a (ne_of_inner2 h1)
    obtain ⟨s, hs, e2⟩ := ang_spec a (ne_of_inner2 h2)
    have : turn (v m) (v (m + 1)) = ang a (v (m + 1)) - ang a (v m) := by
      conv_lhs => rw [e1, e2]
      exact turn_smul _ _ _ _ hr hs (by linarith [n1.1, n1.2, n2.1, n2.2])
        (by linarith [n1.1, n1.2, n2.1, n2.2])
    rw [this]; ring

/-- Nonzero edges: the last edge is the first one turned by the sum. -/
theorem sum_turn_ne (v : ℕ → ℝ × ℝ) (m : ℕ) (h : ∀ j ≤ m, v j ≠ 0) {r a : ℝ} (hr : 0 < r)
    (h0 : v 0 = r • dir a) :
    ∃ s : ℝ, 0 < s ∧ v m = s • dir (a + ∑ j ∈ range m, turn (v j) (v (j + 1))) := by
  induction m with
  | zero => exact ⟨r, hr, by simpa using h0⟩
  | succ m ih =>
    obtain ⟨s, hs, e⟩ := ih (fun j hj => h j (by omega))
    obtain ⟨s', hs', e'⟩ := exists_polar (v m) (v (m + 1)) (h (m + 1) le_rfl) s _ hs e
    exact ⟨s', hs', by rw [e', sum_range_succ, ← add_assoc]⟩

/-! ### Uniqueness of the rotation -/

theorem int_of_dir_eq {r s a b : ℝ} (hr : 0 < r) (hs : 0 < s) (h : r • dir a = s • dir b) :
    ∃ k : ℤ, a - b = k * (2 * Real.pi) := by
  have h1 : r * Real.cos a = s * Real.cos b := congrArg Prod.fst h
  have h2 : r * Real.sin a = s * Real.sin b := congrArg Prod.snd h
  have ca := Real.cos_sq_add_sin_sq a
  have cb := Real.cos_sq_add_sin_sq b
  have e : r ^ 2 = s ^ 2 := by
    have : (r * Real.cos a) ^ 2 + (r * Real.sin a) ^ 2 = (s * Real.cos b) ^ 2 + (s * Real.sin b) ^ 2 := by
      rw [h1, h2]
    nlinarith
  have e' : r = s := by
    have := abs_eq_abs.2 (sq_eq_sq_iff_eq_or_eq_neg.1 e)
    rwa [abs_of_pos hr, abs_of_pos hs] at this
  rw [← e'] at h1 h2
  have k1 := mul_left_cancel₀ hr.ne' h1
  have k2 := mul_left_cancel₀ hr.ne' h2
  have : Real.cos (a - b) = 1 := by
    rw [Real.cos_sub, k1, k2, ← sq, ← sq, cb]
  obtain ⟨k, hk⟩ := (Real.cos_eq_one_iff _).1 this
  exact ⟨k, hk.symm⟩

theorem const_of_int {f : ℝ → ℝ} {a b : ℝ} (hab : a ≤ b) (hc : ContinuousOn f (Set.Icc a b))
    (hint : ∀ t ∈ Set.Icc a b, ∃ k : ℤ, f t = k) : f b = f a := by
  by_contra hne
  obtain ⟨k, hk⟩ := hint a ⟨le_rfl, hab⟩
  obtain ⟨l, hl⟩ := hint b ⟨hab, le_rfl⟩
  have hkl : k ≠ l := by rintro rfl; exact hne (hl.trans hk.symm)
  rcases lt_or_gt_of_ne hkl with h | h
  · have hm : (k : ℝ) + 1 / 2 ∈ Set.Icc (f a) (f b) := by
      have : (k : ℝ) + 1 ≤ l := by exact_mod_cast h
      rw [hk, hl]; constructor <;> linarith
    obtain ⟨x, hx, ex⟩ := intermediate_value_Icc hab hc hm
    obtain ⟨m, em⟩ := hint x hx
    rw [em] at ex
    have : (2 * m : ℝ) = 2 * k + 1 := by linarith
    have : (2 * m : ℤ) = 2 * k + 1 := by exact_mod_cast this
    omega
  · have hm : (l : ℝ) + 1 / 2 ∈ Set.Icc (f b) (f a) := by
      have : (l : ℝ) + 1 ≤ k := by exact_mod_cast h
      rw [hk, hl]; constructor <;> linarith
    obtain ⟨x, hx, ex⟩ := intermediate_value_Icc' hab hc hm
    obtain ⟨m, em⟩ := hint x hx
    rw [em] at ex
    have : (2 * m : ℝ) = 2 * l + 1 := by linarith
    have : (2 * m : ℤ) = 2 * l + 1 := by exact_mod_cast this
    omega

/-- Two continuous angles of the same directions inside an interval differ by a constant. -/
theorem diff_const_open {p q : ℝ → ℝ} {a b : ℝ} (hab : a < b) (hp : ContinuousOn p (Set.Icc a b))
    (hq : ContinuousOn q (Set.Icc a b))
    (h : ∀ t, a < t → t < b → ∃ r s : ℝ, 0 < r ∧ 0 < s ∧ r • dir (p t) = s • dir (q t)) :
    p b - q b = p a - q a := by
  have hc : ContinuousOn (fun t => (p t - q t) / (2 * Real.pi)) (Set.Icc a b) :=
    (hp.sub hq).div_const _
  have hs : Set.EqOn (fun t => Real.sin ((p t - q t) / 2)) (fun _ => 0) (Set.Icc a b) := by
    have h1 : Set.EqOn (fun t => Real.sin ((p t - q t) / 2)) (fun _ => 0) (Set.Ioo a b) := by
      intro t ht
      obtain ⟨r, s, hr, hs, e⟩ := h t ht.1 ht.2
      obtain ⟨k, hk⟩ := int_of_dir_eq hr hs e
      show Real.sin ((p t - q t) / 2) = 0
      rw [hk, Real.sin_eq_zero_iff]
      exact ⟨k, by ring⟩
    refine h1.of_subset_closure (Real.continuous_sin.comp_continuousOn ((hp.sub hq).div_const _))
      continuousOn_const Set.Ioo_subset_Icc_self ?_
    rw [closure_Ioo hab.ne]
  have key := const_of_int hab.le hc (by
    intro t ht
    have : Real.sin ((p t - q t) / 2) = 0 := hs ht
    obtain ⟨n, hn⟩ := Real.sin_eq_zero_iff.1 this
    refine ⟨n, ?_⟩
    have hpi := Real.pi_pos.ne'
    show (p t - q t) / (2 * Real.pi) = n
    rw [div_eq_iff (by positivity)]
    linarith)
  have : (p b - q b) / (2 * Real.pi) = (p a - q a) / (2 * Real.pi) := key
  field_simp at this
  exact this

theorem Angle.diff_const {d : ℝ → ℝ × ℝ} {a b : ℝ} {p q : ℝ → ℝ} (hp : Angle d a b p)
    (hq : Angle d a b q) (hab : a ≤ b) : p b - q b = p a - q a := by
  rcases eq_or_lt_of_le hab with h | h
  · rw [h]
  · refine diff_const_open h hp.cont hq.cont fun t h1 h2 => ?_
    obtain ⟨r, hr, e1⟩ := hp.eq t h1.le h2.le
    obtain ⟨s, hs, e2⟩ := hq.eq t h1.le h2.le
    exact ⟨r, s, hr, hs, e1.symm.trans e2⟩

theorem Angle.mono {d : ℝ → ℝ × ℝ} {a b a' b' : ℝ} {p : ℝ → ℝ} (hp : Angle d a b p)
    (ha : a ≤ a') (hb : b' ≤ b) : Angle d a' b' p :=
  ⟨hp.cont.mono (Set.Icc_subset_Icc ha hb), fun t h1 h2 => hp.eq t (ha.trans h1) (h2.trans hb)⟩

theorem turn_angle {d : ℝ → ℝ × ℝ} {a b s t : ℝ} {p : ℝ → ℝ} (hp : Angle d a b p)
    (hs : a ≤ s ∧ s ≤ b) (ht : a ≤ t ∧ t ≤ b) (h : |p t - p s| < Real.pi) : turn (d s) (d t) = p t - p s := by
  obtain ⟨r1, h1, e1⟩ := hp.eq s hs.1 hs.2
  obtain ⟨r2, h2, e2⟩ := hp.eq t ht.1 ht.2
  have := abs_lt.1 h
  rw [e1, e2]
  exact turn_smul _ _ _ _ h1 h2 (by linarith [this.1]) this.2.le

/-! ### Bézier curves -/

/-- Forward differences. -/
def diff (P : ℕ → ℝ × ℝ) (i : ℕ) : ℝ × ℝ := P (i + 1) - P i

theorem umb_diff (P : ℕ → ℝ × ℝ) (f : ℝ[X]) : umb P (f * (X - 1)) = umb (diff P) f := by
  induction f using Polynomial.induction_on' with
  | add p q hp hq => rw [add_mul, map_add, map_add, hp, hq]
  | monomial i a =>
    rw [mul_sub, mul_one, map_sub, monomial_mul_X, umb_monomial, umb_monomial, umb_monomial, diff,
      smul_sub]

/-- The tangent of a Bézier curve with `m + 2` control points. -/
noncomputable def tangent (m : ℕ) (P : ℕ → ℝ × ℝ) (t : ℝ) : ℝ × ℝ :=
  (m + 1 : ℝ) • umb (diff P) (lin t ^ m)

theorem evaluateDerivative_tangent (m : ℕ) (P : ℕ → ℝ × ℝ) (t : ℝ) :
    Bezier.evaluateDerivative ({ ctrl := arr (m + 2) P } : Bezier (ℝ × ℝ)) t = ok (tangent m P t) := by
  rw [Bezier.evaluateDerivative_arr, umb_diff]; rfl

theorem tangent_cont (m : ℕ) (P : ℕ → ℝ × ℝ) : Continuous (tangent m P) := by
  have : tangent m P = fun t => (m + 1 : ℝ) • ∑ i ∈ range (m + 1), Spec.bernstein m i t • diff P i := by
    funext t; rw [tangent, umb_lin_pow]
  rw [this]
  unfold Spec.bernstein
  fun_prop

/-- The control points of a part. -/
noncomputable def sub (m : ℕ) (P : ℕ → ℝ × ℝ) (t0 t1 : ℝ) (i : ℕ) : ℝ × ℝ :=
  umb P (lin t0 ^ (m + 1 - i) * lin t1 ^ i)

theorem sub_edge (m : ℕ) (P : ℕ → ℝ × ℝ) (t0 t1 : ℝ) (i : ℕ) (hi : i ≤ m) :
    sub m P t0 t1 (i + 1) - sub m P t0 t1 i
      = (t1 - t0) • umb (diff P) (lin t0 ^ (m - i) * lin t1 ^ i) := by
  unfold sub
  rw [← umb_diff, ← map_sub, ← umb_C_mul]
  congr 1
  have e1 : m + 1 - (i + 1) = m - i := by omega
  have e2 : m + 1 - i = m - i + 1 := by omega
  rw [e1, e2]
  have : (lin t1 - lin t0 : ℝ[X]) = C (t1 - t0) * (X - 1) := by
    simp only [lin, map_sub, map_one]; ring
  have h : lin t0 ^ (m - i) * lin t1 ^ (i + 1) - lin t0 ^ (m - i + 1) * lin t1 ^ i
      = lin t0 ^ (m - i) * lin t1 ^ i * (lin t1 - lin t0) := by ring
  rw [h, this]; ring

/-- Along a part the tangent is a convex combination of its edges, up to a positive factor. -/
theorem tangent_combination (m : ℕ) (P : ℕ → ℝ × ℝ) {t0 t1 : ℝ} (h : t0 < t1) (t : ℝ) :
    tangent m P t = ((m + 1 : ℝ) / (t1 - t0)) • ∑ i ∈ range (m + 1),
      Spec.bernstein m i ((t - t0) / (t1 - t0)) • (sub m P t0 t1 (i + 1) - sub m P t0 t1 i) := by
  have hne : t1 - t0 ≠ 0 := by linarith
  have e := umb_compose (diff P) (lin t0) (lin t1) m ((t - t0) / (t1 - t0))
  rw [lin_affine] at e
  have et : (1 - (t - t0) / (t1 - t0)) * t0 + (t - t0) / (t1 - t0) * t1 = t := by
    field_simp; ring
  rw [et] at e
  have : ∑ i ∈ range (m + 1), Spec.bernstein m i ((t - t0) / (t1 - t0)) •
      (sub m P t0 t1 (i + 1) - sub m P t0 t1 i) = (t1 - t0) • umb (diff P) (lin t ^ m) := by
    rw [← e, smul_sum]
    apply sum_congr rfl
    intro i hi
    rw [sub_edge m P t0 t1 i (by simp at hi; omega), smul_comm]
  rw [this, smul_smul, div_mul_cancel₀ _ hne]; rfl

theorem bernstein_pos_sum (m : ℕ) {s : ℝ} (h0 : 0 ≤ s) (h1 : s ≤ 1) (f : ℕ → ℝ) (hf : ∀ i ≤ m, 0 < f i) :
    0 < ∑ i ∈ range (m + 1), Spec.bernstein m i s * f i := by
  have hnn : ∀ i, 0 ≤ Spec.bernstein m i s := by
    intro i; unfold Spec.bernstein
    have : 0 ≤ 1 - s := by linarith
    positivity
  rcases eq_or_lt_of_le h1 with e | e
  · refine sum_pos' (fun i hi => mul_nonneg (hnn i) (hf i (by simp at hi; omega)).le)
      ⟨m, by simp, mul_pos ?_ (hf m le_rfl)⟩
    rw [e]; simp [Spec.bernstein]
  · refine sum_pos' (fun i hi => mul_nonneg (hnn i) (hf i (by simp at hi; omega)).le)
      ⟨0, by simp, mul_pos ?_ (hf 0 (by omega))⟩
    unfold Spec.bernstein
    have : 0 < 1 - s := by linarith
    simp; positivity

theorem inner2_sum (w : ℝ × ℝ) (s : Finset ℕ) (b : ℕ → ℝ) (v : ℕ → ℝ × ℝ) :
    inner2 w (∑ i ∈ s, b i • v i) = ∑ i ∈ s, b i * inner2 w (v i) := by
  unfold inner2
  rw [Prod.fst_sum, Prod.snd_sum, mul_sum, mul_sum, ← sum_add_distrib]
  apply sum_congr rfl
  intro i _
  simp only [Prod.smul_fst, Prod.smul_snd, smul_eq_mul]
  ring

theorem inner2_smul (w v : ℝ × ℝ) (c : ℝ) : inner2 w (c • v) = c * inner2 w v := by
  simp [inner2]; ring

theorem tangent_half (m : ℕ) (P : ℕ → ℝ × ℝ) {t0 t1 : ℝ} (h : t0 < t1) (w : ℝ × ℝ)
    (hw : ∀ i ≤ m, 0 < inner2 w (sub m P t0 t1 (i + 1) - sub m P t0 t1 i)) (t : ℝ) (h0 : t0 ≤ t)
    (h1 : t ≤ t1) : 0 < inner2 w (tangent m P t) := by
  have hp : 0 < t1 - t0 := by linarith
  rw [tangent_combination m P h, inner2_smul, inner2_sum]
  refine mul_pos (div_pos (by positivity) hp) (bernstein_pos_sum m ?_ ?_ _ hw)
  · exact div_nonneg (by linarith) hp.le
  · rw [div_le_one hp]; linarith

theorem tangent_first (m : ℕ) (P : ℕ → ℝ × ℝ) {t0 t1 : ℝ} (h : t0 < t1) :
    tangent m P t0 = ((m + 1 : ℝ) / (t1 - t0)) • (sub m P t0 t1 1 - sub m P t0 t1 0) := by
  have hne : t1 - t0 ≠ 0 := by linarith
  rw [sub_edge m P t0 t1 0 (by omega), smul_smul, div_mul_cancel₀ _ hne]
  simp [tangent]

theorem tangent_last (m : ℕ) (P : ℕ → ℝ × ℝ) {t0 t1 : ℝ} (h : t0 < t1) :
    tangent m P t1 = ((m + 1 : ℝ) / (t1 - t0)) • (sub m P t0 t1 (m + 1) - sub m P t0 t1 m) := by
  have hne : t1 - t0 ≠ 0 := by linarith
  rw [sub_edge m P t0 t1 m le_rfl, smul_smul, div_mul_cancel₀ _ hne]
  simp [tangent]

theorem bezier_arr (m : ℕ) (P : ℕ → ℝ × ℝ) (per : Bool) {t0 t1 : ℝ} (h0 : 0 ≤ t0) (h01 : t0 ≤ t1)
    (h1 : t1 ≤ 1) :
    bezier { ctrl := arr (m + 2) P, periodic := per } t0 t1
      = ok (∑ j ∈ range m, turn (sub m P t0 t1 (j + 1) - sub m P t0 t1 j)
          (sub m P t0 t1 (j + 2) - sub m P t0 t1 (j + 1))) := by
  unfold bezier
  rw [Bezier.subcurve_arr (m + 1) P t0 t1 per h01 h0 h1, ok_bind]
  exact polygonTurning_arr (m + 2) (sub m P t0 t1)

theorem turn_smul_left {c : ℝ} (hc : 0 < c) (v w : ℝ × ℝ) : turn (c • v) w = turn v w := by
  unfold turn
  rw [← Complex.arg_real_mul ⟨v.1 * w.1 + v.2 * w.2, _⟩ hc]
  congr 1
  apply Complex.ext <;> simp <;> ring

theorem turn_self (v : ℝ × ℝ) : turn v v = 0 := by
  unfold turn
  rw [Complex.arg_eq_zero_iff]
  constructor
  · show 0 ≤ v.1 * v.1 + v.2 * v.2
    nlinarith [mul_self_nonneg v.1, mul_self_nonneg v.2]
  · show v.1 * v.2 - v.2 * v.1 = 0
    ring

/-- An affine vector field without a zero. -/
theorem rotates_affine {d : ℝ → ℝ × ℝ} {t0 t1 : ℝ} (h01 : t0 ≤ t1) (p q : ℝ × ℝ)
    (hd : ∀ t, d t = p + t • q) (hne : ∀ t, t0 ≤ t → t ≤ t1 → d t ≠ 0) :
    Rotates d t0 t1 (turn (d t0) (d t1)) := by
  obtain ⟨r, a, hr, e⟩ := exists_angle (d t0) (hne t0 le_rfl h01)
  have hdir : dir a = r⁻¹ • d t0 := by rw [e, smul_smul, inv_mul_cancel₀ hr.ne', one_smul]
  have hrp : 0 < r⁻¹ := inv_pos.2 hr
  have hdt : ∀ t, d t = d t0 + (t - t0) • q := by
    intro t; rw [hd t, hd t0, sub_smul]; abel
  have hc : ContinuousOn d (Set.Icc t0 t1) := by
    have : d = fun t => p + t • q := funext hd
    rw [this]; fun_prop
  have h0 : 0 < (d t0).1 * (d t0).1 + (d t0).2 * (d t0).2 := by
    rcases eq_or_ne (d t0).1 0 with g | g
    · have : (d t0).2 ≠ 0 := fun g' => hne t0 le_rfl h01 (Prod.ext g g')
      have := mul_self_pos.2 this
      nlinarith [mul_self_nonneg (d t0).1]
    · have := mul_self_pos.2 g
      nlinarith [mul_self_nonneg (d t0).2]
  refine ⟨fun t => ang a (d t), ⟨ang_cont a hc ?_, fun t g1 g2 => ang_spec a (hne t g1 g2)⟩, ?_⟩
  · intro t ht
    have w1 : (dir a).1 = r⁻¹ * (d t0).1 := by rw [hdir]; rfl
    have w2 : (dir a).2 = r⁻¹ * (d t0).2 := by rw [hdir]; rfl
    have c1 : (d t).1 = (d t0).1 + (t - t0) * q.1 := by rw [hdt t]; rfl
    have c2 : (d t).2 = (d t0).2 + (t - t0) * q.2 := by rw [hdt t]; rfl
    by_cases hx : (d t0).1 * q.2 - (d t0).2 * q.1 = 0
    · left
      unfold inner2
      rw [w1, w2, c1, c2]
      set N := (d t0).1 * (d t0).1 + (d t0).2 * (d t0).2 with hN
      set k := (d t0).1 * q.1 + (d t0).2 * q.2 with hk
      have key : 0 < N + (t - t0) * k := by
        by_contra hcon
        push Not at hcon
        have hkneg : k < 0 := by
          by_contra g
          push Not at g
          have := mul_nonneg (sub_nonneg.2 ht.1) g
          linarith
        have hs1 : t0 ≤ t0 + N / (-k) := by
          have : 0 ≤ N / (-k) := div_nonneg h0.le (by linarith)
          linarith
        have hs2 : t0 + N / (-k) ≤ t1 := by
          have : N / (-k) ≤ t - t0 := by
            rw [div_le_iff₀ (by linarith)]; linarith
          linarith [ht.2]
        apply hne _ hs1 hs2
        have hk0 : k ≠ 0 := hkneg.ne
        have hN0 : N ≠ 0 := h0.ne'
        rw [hdt, add_sub_cancel_left]
        have q1 : N * q.1 = k * (d t0).1 := by
          rw [hN, hk]; linear_combination (-(d t0).2) * hx
        have q2 : N * q.2 = k * (d t0).2 := by
          rw [hN, hk]; linear_combination ((d t0).1) * hx
        ext
        · show (d t0).1 + N / (-k) * q.1 = 0
          have : N / (-k) * q.1 = -((N * q.1) / k) := by field_simp
          rw [this, q1]; field_simp; ring
        · show (d t0).2 + N / (-k) * q.2 = 0
          have : N / (-k) * q.2 = -((N * q.2) / k) := by field_simp
          rw [this, q2]; field_simp; ring
      have : r⁻¹ * (d t0).1 * ((d t0).1 + (t - t0) * q.1) + r⁻¹ * (d t0).2 * ((d t0).2 + (t - t0) * q.2)
          = r⁻¹ * (N + (t - t0) * k) := by rw [hN, hk]; ring
      rw [this]
      exact mul_pos hrp key
    · rcases eq_or_lt_of_le ht.1 with g | g
      · left
        unfold inner2
        rw [w1, w2, ← g]
        nlinarith [mul_pos hrp h0]
      · right
        rw [w1, w2, c1, c2]
        have : r⁻¹ * (d t0).1 * ((d t0).2 + (t - t0) * q.2) - r⁻¹ * (d t0).2 * ((d t0).1 + (t - t0) * q.1)
          = r⁻¹ * ((t - t0) * ((d t0).1 * q.2 - (d t0).2 * q.1)) := by ring
        rw [this]
        exact mul_ne_zero hrp.ne' (mul_ne_zero (sub_pos.2 g).ne' hx)
  · show ang a (d t1) - ang a (d t0) = turn (d t0) (d t1)
    unfold ang
    rw [hdir, turn_smul_left hrp, turn_smul_left hrp, turn_self]
    ring

end Turning
end NS
