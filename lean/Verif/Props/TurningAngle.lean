import Verif.Proof.TurningAngle
import Verif.Props.Bezier
import Verif.Props.BSpline
import Verif.Model.Line
import Verif.Model.Primitive
import Mathlib.Analysis.SpecialFunctions.Trigonometric.Arctan

/-!
# C75: turning angles
-/

namespace NS
namespace Turning

open Outcome Finset Polynomial Spec

/-- **C75** (the specification): the rotation of a tangent is a single number. -/
theorem C75_unique {d : ℝ → ℝ × ℝ} {a b x y : ℝ} (hab : a ≤ b) (hx : Rotates d a b x)
    (hy : Rotates d a b y) : x = y := by
  obtain ⟨p, hp, e1⟩ := hx
  obtain ⟨q, hq, e2⟩ := hy
  have := hp.diff_const hq hab
  linarith

theorem half_sub {m : ℕ} {P : ℕ → ℝ × ℝ} {w : ℝ × ℝ} {t0 t1 r a : ℝ} (hr : 0 < r) (hw : w = r • dir a)
    (h : HalfPlane w (arr (m + 2) (sub m P t0 t1))) :
    ∀ i ≤ m, 0 < inner2 (dir a) (sub m P t0 t1 (i + 1) - sub m P t0 t1 i) := by
  intro i hi
  have := h i _ _ (arr_getElem?_of_lt (by omega)) (arr_getElem?_of_lt (by omega))
  rw [hw] at this
  have e : (r • dir a).1 * ((sub m P t0 t1 (i + 1)).1 - (sub m P t0 t1 i).1)
      + (r • dir a).2 * ((sub m P t0 t1 (i + 1)).2 - (sub m P t0 t1 i).2)
      = r * inner2 (dir a) (sub m P t0 t1 (i + 1) - sub m P t0 t1 i) := by
    simp [inner2]; ring
  rw [e] at this
  exact (mul_pos_iff_of_pos_left hr).1 this

theorem exists_ctrl (c : Bezier (ℝ × ℝ)) (hp : c.periodic = false) (hlen : 2 ≤ c.ctrl.length) :
    ∃ m P, c = { ctrl := arr (m + 2) P } ∧ c.ctrl.length = m + 2 := by
  obtain ⟨n, P, e⟩ := Bezier.exists_arr c.ctrl (by intro h; simp [h] at hlen)
  have hn : c.ctrl.length = n + 1 := by rw [e]; simp
  obtain ⟨m, rfl⟩ : ∃ m, n = m + 1 := ⟨n - 1, by omega⟩
  exact ⟨m, P, by cases c; simp_all, hn⟩

/-- **C75** (Bézier curves of any degree, generic class): if the edges of the control polygon of the part
`[t0, t1]` have a positive component along one direction, then the tangent does not vanish, the result is
the rotation of the tangent, and is less than half a turn.  Missing: polygons that are not in a half plane
(`C75_bezier_modulo`, `C75_polygon_refuted`). -/
theorem C75_bezier_partial {c : Bezier (ℝ × ℝ)} (hp : c.periodic = false) (hlen : 2 ≤ c.ctrl.length)
    {t0 t1 : ℝ} (h0 : 0 ≤ t0) (h01 : t0 < t1) (h1 : t1 ≤ 1) {w : ℝ × ℝ}
    (hw : ∀ s, c.subcurve t0 t1 = ok s → HalfPlane w s.ctrl) {d : ℝ → ℝ × ℝ}
    (hd : ∀ t, t0 ≤ t → t ≤ t1 → c.evaluateDerivative t = ok (d t)) :
    ∃ theta, bezier c t0 t1 = ok theta ∧ |theta| < Real.pi ∧ Rotates d t0 t1 theta := by
  obtain ⟨m, P, e, -⟩ := exists_ctrl c hp hlen
  subst e
  have hwn : w ≠ 0 := by
    rintro rfl
    have := hw _ (Bezier.subcurve_arr (m + 1) P t0 t1 false h01.le h0 h1) 0 _ _
      (arr_getElem?_of_lt (by omega)) (arr_getElem?_of_lt (by omega))
    simp at this
  obtain ⟨r, a, hr, ew⟩ := exists_angle w hwn
  have hh := half_sub hr ew (hw _ (Bezier.subcurve_arr (m + 1) P t0 t1 false h01.le h0 h1))
  have hdt : ∀ t, t0 ≤ t → t ≤ t1 → d t = tangent m P t := by
    intro t g1 g2
    have := hd t g1 g2
    rw [evaluateDerivative_tangent, ok.injEq] at this
    exact this.symm
  have hc : ContinuousOn d (Set.Icc t0 t1) :=
    (tangent_cont m P).continuousOn.congr (fun t ht => hdt t ht.1 ht.2)
  have hpos : ∀ t, t0 ≤ t → t ≤ t1 → 0 < inner2 (dir a) (d t) := by
    intro t g1 g2
    rw [hdt t g1 g2]
    exact tangent_half m P h01 _ hh t g1 g2
  have hk : (0 : ℝ) < (m + 1 : ℝ) / (t1 - t0) := div_pos (by positivity) (by linarith)
  refine ⟨_, bezier_arr m P false h0 h01.le h1, ?_⟩
  have hsum := sum_turn_half a (fun j => sub m P t0 t1 (j + 1) - sub m P t0 t1 j) m hh
  have f0 : ang a (d t0) = ang a (sub m P t0 t1 (0 + 1) - sub m P t0 t1 0) := by
    rw [hdt t0 le_rfl h01.le, tangent_first m P h01, ang_smul a hk]
  have f1 : ang a (d t1) = ang a (sub m P t0 t1 (m + 1) - sub m P t0 t1 m) := by
    rw [hdt t1 h01.le le_rfl, tangent_last m P h01, ang_smul a hk]
  have hres : ∑ j ∈ range m, turn (sub m P t0 t1 (j + 1) - sub m P t0 t1 j)
      (sub m P t0 t1 (j + 2) - sub m P t0 t1 (j + 1)) = ang a (d t1) - ang a (d t0) := by
    rw [f0, f1]; exact hsum
  rw [hres]
  refine ⟨?_, _, angle_of_half a hc hpos, rfl⟩
  have n0 := abs_lt.1 (ang_near a (hpos t0 le_rfl h01.le))
  have n1 := abs_lt.1 (ang_near a (hpos t1 h01.le le_rfl))
  rw [abs_lt]
  constructor <;> linarith [n0.1, n0.2, n1.1, n1.2]

/-- **C75** (modulo full turns): if consecutive control points of the part differ, turning the tangent at `t0`
by the result gives the direction of the tangent at `t1`. -/
theorem C75_bezier_modulo {c : Bezier (ℝ × ℝ)} (hp : c.periodic = false) (hlen : 2 ≤ c.ctrl.length)
    {t0 t1 : ℝ} (h0 : 0 ≤ t0) (h01 : t0 < t1) (h1 : t1 ≤ 1)
    (hw : ∀ s, c.subcurve t0 t1 = ok s → Proper s.ctrl) :
    ∃ theta a r0 r1 : ℝ, bezier c t0 t1 = ok theta ∧ 0 < r0 ∧ 0 < r1 ∧
      c.evaluateDerivative t0 = ok (r0 • dir a) ∧ c.evaluateDerivative t1 = ok (r1 • dir (a + theta)) := by
  obtain ⟨m, P, e, -⟩ := exists_ctrl c hp hlen
  subst e
  have hpr := hw _ (Bezier.subcurve_arr (m + 1) P t0 t1 false h01.le h0 h1)
  have hk : (0 : ℝ) < (m + 1 : ℝ) / (t1 - t0) := div_pos (by positivity) (by linarith)
  have hne : ∀ j ≤ m, sub m P t0 t1 (j + 1) - sub m P t0 t1 j ≠ 0 := by
    intro j hj g
    exact hpr j _ _ (arr_getElem?_of_lt (by omega)) (arr_getElem?_of_lt (by omega)) (sub_eq_zero.1 g).symm
  obtain ⟨r, a, hr, e0⟩ := exists_angle _ (hne 0 (by omega))
  obtain ⟨s, hs, e1⟩ := sum_turn_ne (fun j => sub m P t0 t1 (j + 1) - sub m P t0 t1 j) m hne hr e0
  refine ⟨_, a, (m + 1 : ℝ) / (t1 - t0) * r, (m + 1 : ℝ) / (t1 - t0) * s,
    bezier_arr m P false h0 h01.le h1, mul_pos hk hr, mul_pos hk hs, ?_, ?_⟩
  · rw [evaluateDerivative_tangent, tangent_first m P h01, mul_smul, ← e0]
  · rw [evaluateDerivative_tangent, tangent_last m P h01, mul_smul]
    exact congrArg (fun z => ok (((m + 1 : ℝ) / (t1 - t0)) • z)) e1

/-- A cubic whose polygon turns the other way round than its tangent. -/
noncomputable def exHook : Bezier (ℝ × ℝ) :=
  { ctrl := [(0, 0), (1, 0), (1, 1 / 10), (0, -(9 / 10))] }

/-- **C75** (generic class): false without the half plane.  The tangent of `exHook` turns clockwise by less
than half a turn, the result is more than half a turn counterclockwise. -/
theorem C75_polygon_refuted :
    ∃ theta theta' d, bezier exHook 0 1 = ok theta ∧
      (∀ t, exHook.evaluateDerivative t = ok (d t)) ∧ Rotates d 0 1 theta' ∧ theta ≠ theta' := by
  have hex : exHook = { ctrl := arr (2 + 2) (fun i => exHook.ctrl.getD i 0) } := rfl
  set P : ℕ → ℝ × ℝ := fun i => exHook.ctrl.getD i 0 with hP
  have p0 : P 0 = (0, 0) := rfl
  have p1 : P 1 = (1, 0) := rfl
  have p2 : P 2 = (1, 1 / 10) := rfl
  have p3 : P 3 = (0, -(9 / 10)) := rfl
  have hd : ∀ t, exHook.evaluateDerivative t = ok (tangent 2 P t) := by
    intro t; rw [hex]; exact evaluateDerivative_tangent 2 P t
  have ht : ∀ t, tangent 2 P t
      = (3 * ((1 - t) ^ 2 - t ^ 2), 3 * (2 * t * (1 - t) / 10 - t ^ 2)) := by
    intro t
    rw [tangent, umb_lin_pow]
    simp only [sum_range_succ, range_zero, sum_empty, Spec.bernstein, diff, p0, p1, p2, p3]
    ext
    · norm_num [Nat.choose]; ring
    · norm_num [Nat.choose]; ring
  -- the half plane of the tangent
  obtain ⟨r, a, hr, ew⟩ := exists_angle ((1 : ℝ), (-2 : ℝ))
    (by intro h; have := congrArg Prod.fst h; norm_num at this)
  have hdir : dir a = r⁻¹ • ((1 : ℝ), (-2 : ℝ)) := by
    rw [ew, smul_smul, inv_mul_cancel₀ hr.ne', one_smul]
  have hpos : ∀ t, (0 : ℝ) ≤ t → t ≤ 1 → 0 < inner2 (dir a) (tangent 2 P t) := by
    intro t _ _
    rw [ht, hdir]
    have : inner2 (r⁻¹ • ((1 : ℝ), (-2 : ℝ))) (3 * ((1 - t) ^ 2 - t ^ 2), 3 * (2 * t * (1 - t) / 10 - t ^ 2))
        = r⁻¹ * (3 * ((1 - t) ^ 2 + t ^ 2 - 4 / 10 * t * (1 - t))) := by simp [inner2]; ring
    rw [this]
    refine mul_pos (inv_pos.2 hr) ?_
    nlinarith [sq_nonneg (t - 1 / 2)]
  have hrot : Rotates (tangent 2 P) 0 1 (ang a (tangent 2 P 1) - ang a (tangent 2 P 0)) :=
    ⟨_, angle_of_half a (tangent_cont 2 P).continuousOn hpos, rfl⟩
  refine ⟨turn (1, 0) (0, 1 / 10) + turn (0, 1 / 10) (-1, -1), _, _, ?_, hd, hrot, ?_⟩
  · rw [hex, bezier_arr 2 P false le_rfl zero_le_one le_rfl]
    have hsub : ∀ i, i ≤ 3 → sub 2 P 0 1 i = P i := by
      intro i _
      rw [sub, lin_zero, lin_one, one_pow, one_mul, umb_X_pow]
    rw [sum_range_succ, sum_range_one, hsub 0 (by omega), hsub 1 (by omega), hsub 2 (by omega),
      hsub 3 (by omega), p0, p1, p2, p3]
    norm_num
  · have n0 := abs_lt.1 (ang_near a (hpos 0 le_rfl zero_le_one))
    have n1 := abs_lt.1 (ang_near a (hpos 1 zero_le_one le_rfl))
    have e1 : turn (1, 0) (0, 1 / 10) = Real.pi / 2 := by
      unfold turn
      rw [← Complex.arg_I, ← Complex.arg_real_mul Complex.I (r := 1 / 10) (by norm_num)]
      congr 1
      apply Complex.ext <;> simp
    have e2 : Real.pi / 2 < turn (0, 1 / 10) (-1, -1) := by
      have k1 : 0 ≤ turn (0, 1 / 10) (-1, -1) := by
        unfold turn; rw [Complex.arg_nonneg_iff]; norm_num
      have k2 : ¬ |turn (0, 1 / 10) (-1, -1)| ≤ Real.pi / 2 := by
        unfold turn; rw [Complex.abs_arg_le_pi_div_two_iff]; norm_num
      rw [abs_of_nonneg k1] at k2
      exact not_le.1 k2
    rw [e1]
    intro h
    linarith [n0.1, n0.2, n1.1, n1.2]

/-- **C75** (degree 2): exact whenever the tangent does not vanish, also beyond `[0, 1]`. -/
theorem C75_quadratic {c : Bezier (ℝ × ℝ)} (hp : c.periodic = false) (hlen : c.ctrl.length = 3)
    {t0 t1 : ℝ} (h01 : t0 ≤ t1) {d : ℝ → ℝ × ℝ} (hd : ∀ t, c.evaluateDerivative t = ok (d t))
    (hne : ∀ t, t0 ≤ t → t ≤ t1 → d t ≠ 0) :
    ∃ theta, bezier2 c t0 t1 = ok theta ∧ Rotates d t0 t1 theta := by
  obtain ⟨l, per⟩ := c
  match l, hlen with
  | [x, y, z], _ =>
    simp only at hp
    subst hp
    have h2 : ∀ t : ℝ, Bezier.evaluateDerivative2 (Bezier.mk [x, y, z] false) t = ok (d t) := by
      intro t
      rw [(Props.C02_degree2 x y z false t).2.1]
      exact hd t
    have hdd : ∀ t : ℝ, d t = ((2 : ℝ) • (y - x)) + t • ((2 : ℝ) • (x + z - (2 : ℝ) • y)) := by
      intro t
      have := (h2 t).symm
      simp only [Bezier.evaluateDerivative2, Bezier.wrap, Bool.false_eq_true, if_false, ok_bind, rd,
        List.getElem?_cons_zero, List.getElem?_cons_succ, pure_eq, ok.injEq] at this
      rw [this]
      module
    refine ⟨turn (d t0) (d t1), ?_, rotates_affine h01 _ _ hdd hne⟩
    rw [bezier2, h2, ok_bind, h2, ok_bind]; rfl

theorem rotates_const {v : ℝ × ℝ} (hv : v ≠ 0) (t0 t1 : ℝ) : Rotates (fun _ => v) t0 t1 0 := by
  obtain ⟨r, a, hr, e⟩ := exists_angle v hv
  exact ⟨fun _ => a, ⟨continuousOn_const, fun _ _ _ => ⟨r, hr, e⟩⟩, sub_self a⟩

/-- **C75** (degree 1): the tangent does not turn and the result is zero. -/
theorem C75_degree1 {p q : ℝ × ℝ} (h : p ≠ q) (per : Bool) (t0 t1 : ℝ) :
    ∃ theta d, straight t0 t1 = ok theta ∧
      (∀ t : ℝ, Bezier.evaluateDerivative1 (Bezier.mk [p, q] per) t = ok (d t)) ∧ Rotates d t0 t1 theta :=
  ⟨0, fun _ => q - p, rfl, fun _ => rfl, rotates_const (sub_ne_zero.2 h.symm) t0 t1⟩

/-- **C75** (lines): the tangent does not turn and the result is zero. -/
theorem C75_line (c : Line ℝ (ℝ × ℝ)) (h : c.direction ≠ 0) (t0 t1 : ℝ) :
    ∃ theta, straight t0 t1 = ok theta ∧ Rotates c.evaluateDerivative t0 t1 theta :=
  ⟨0, rfl, rotates_const h t0 t1⟩

/-! ### The cubic class -/

theorem umb_sub_compose (m : ℕ) (P : ℕ → ℝ × ℝ) (t0 s : ℝ) {i : ℕ} (hi : i ≤ m + 1) :
    umb (fun j => umb P (lin t0 ^ (m + 1 - j) * X ^ j)) (lin s ^ i)
      = sub m P t0 (t0 + (1 - t0) * s) i := by
  rw [umb_lin_pow]
  have e := umb_compose (fun j => umb P (lin t0 ^ (m + 1 - i) * X ^ j)) (lin t0) X i s
  have hx : (C (1 - s) * lin t0 + C s * X : ℝ[X]) = lin (t0 + (1 - t0) * s) := by
    have := lin_affine s t0 (1 : ℝ)
    rw [lin_one] at this
    rw [this]; congr 1; ring
  have hum : ∀ f : ℝ[X], umb (fun j => umb P (lin t0 ^ (m + 1 - i) * X ^ j)) f
      = umb P (lin t0 ^ (m + 1 - i) * f) := by
    intro f
    induction f using Polynomial.induction_on' with
    | add p q hp hq => rw [map_add, mul_add, map_add, hp, hq]
    | monomial k a =>
      rw [umb_monomial, ← C_mul_X_pow_eq_monomial, ← umb_C_mul]
      congr 1; ring
  rw [hx, hum] at e
  rw [sub, ← e]
  apply sum_congr rfl
  intro j hj
  have hj' : j ≤ i := by simp at hj; omega
  rw [hum, ← mul_assoc, ← pow_add]
  congr 4; omega

theorem bezier3_of_sub (P : ℕ → ℝ × ℝ) (per : Bool) {t0 t1 s0 s1 : ℝ} (h0 : 0 ≤ s0) (h01 : s0 ≤ s1)
    (h1 : s1 ≤ 1) {S : Bezier (ℝ × ℝ)}
    (h : Bezier.subcurve3 ({ ctrl := arr 4 P, periodic := per } : Bezier (ℝ × ℝ)) t0 t1 = ok S)
    (hS : S.ctrl = arr 4 (sub 2 P s0 s1)) :
    bezier3 { ctrl := arr 4 P, periodic := per } t0 t1
      = bezier { ctrl := arr 4 P, periodic := per } s0 s1 := by
  rw [bezier3, h, ok_bind, hS, rd_arr (by omega), ok_bind, rd_arr (by omega), ok_bind,
    rd_arr (by omega), ok_bind, rd_arr (by omega), ok_bind, bezier_arr 2 P per h0 h01 h1,
    sum_range_succ, sum_range_one]
  rfl

/-- **C75** (cubic class): for a range that starts at `0` or ends at `1` the cubic class agrees with the generic
one, so the theorems above hold.  Missing: inner ranges (`C75_cubic_refuted`). -/
theorem C75_cubic_partial {c : Bezier (ℝ × ℝ)} (hlen : c.ctrl.length = 4) {t0 t1 : ℝ}
    (h : (t0 = 0 ∧ 0 < t1 ∧ t1 ≤ 1) ∨ (0 ≤ t0 ∧ t0 < 1 ∧ t1 = 1)) :
    bezier3 c t0 t1 = bezier c t0 t1 := by
  obtain ⟨n, P, e⟩ := Bezier.exists_arr c.ctrl (by intro h; simp [h] at hlen)
  have hn : n = 3 := by have := congrArg List.length e; simp [hlen] at this; omega
  subst hn
  have ec : c = { ctrl := arr 4 P, periodic := c.periodic } := by cases c; simp_all
  rw [ec]
  have hb : 0 ≤ t0 ∧ t0 ≤ t1 ∧ t1 ≤ 1 := by
    rcases h with ⟨a, b, d⟩ | ⟨a, b, d⟩ <;> refine ⟨?_, ?_, ?_⟩ <;> linarith
  have hle : ¬ t0 > t1 := not_lt.2 hb.2.1
  rcases eq_or_ne t0 0 with e0 | e0
  · rcases eq_or_ne t1 1 with e1 | e1
    · refine bezier3_of_sub P _ hb.1 hb.2.1 hb.2.2 (S := { ctrl := arr 4 P, periodic := c.periodic }) ?_ ?_
      · rw [Bezier.subcurve3, throwIf_false hle, ok_bind, if_pos ⟨e0, e1⟩]
      · refine arr_congr fun i _ => ?_
        rw [sub, e0, e1, lin_zero, lin_one, one_pow, one_mul, umb_X_pow]
    · have ht1 : 0 < t1 ∧ t1 < 1 := by
        rcases h with ⟨a, b, d⟩ | ⟨a, b, d⟩
        · exact ⟨b, lt_of_le_of_ne d e1⟩
        · exact absurd d e1
      refine bezier3_of_sub P _ hb.1 hb.2.1 hb.2.2 (S := { ctrl := arr 4 (fun i => umb P (lin t1 ^ i)) }) ?_ ?_
      · rw [Bezier.subcurve3, throwIf_false hle, ok_bind, if_neg (fun g => e1 g.2), if_pos e0,
          Bezier.split_arr 4 P _ t1 ht1.1 ht1.2]
        rfl
      · refine arr_congr fun i _ => ?_
        rw [sub, e0, lin_zero, one_pow, one_mul]
  · have ht0 : 0 < t0 ∧ t0 < 1 ∧ t1 = 1 := by
      rcases h with ⟨a, b, d⟩ | ⟨a, b, d⟩
      · exact absurd a e0
      · exact ⟨lt_of_le_of_ne a (Ne.symm e0), b, d⟩
    refine bezier3_of_sub P _ hb.1 hb.2.1 hb.2.2
      (S := { ctrl := arr 4 (fun i => umb P (lin t0 ^ (4 - 1 - i) * X ^ i)) }) ?_ ?_
    · rw [Bezier.subcurve3, throwIf_false hle, ok_bind, if_neg (fun g => e0 g.1), if_neg e0,
        if_pos ht0.2.2, Bezier.split_arr 4 P _ t0 ht0.1 ht0.2.1]
      rfl
    · refine arr_congr fun i _ => ?_
      rw [sub, ht0.2.2, lin_one]

/-- **C75** (cubic class, inner ranges): the result is the one for the range
`[t0, t0 + (1 - t0) t1]`. -/
theorem C75_cubic_actual {c : Bezier (ℝ × ℝ)} (hlen : c.ctrl.length = 4) {t0 t1 : ℝ} (h0 : 0 < t0)
    (h01 : t0 ≤ t1) (h1 : t1 < 1) : bezier3 c t0 t1 = bezier c t0 (t0 + (1 - t0) * t1) := by
  obtain ⟨n, P, e⟩ := Bezier.exists_arr c.ctrl (by intro h; simp [h] at hlen)
  have hn : n = 3 := by have := congrArg List.length e; simp [hlen] at this; omega
  subst hn
  have ec : c = { ctrl := arr 4 P, periodic := c.periodic } := by cases c; simp_all
  rw [ec]
  have k1 : 0 ≤ (1 - t0) * t1 := mul_nonneg (by linarith) (by linarith)
  have k2 : (1 - t0) * t1 ≤ (1 - t0) * 1 := mul_le_mul_of_nonneg_left h1.le (by linarith)
  refine bezier3_of_sub P _ h0.le (by linarith) (by linarith)
    (S := { ctrl := arr 4 (fun i => umb (fun j => umb P (lin t0 ^ (4 - 1 - j) * X ^ j)) (lin t1 ^ i)) })
    ?_ ?_
  · rw [Bezier.subcurve3, throwIf_false (not_lt.2 h01), ok_bind, if_neg (fun g => h0.ne' g.1),
      if_neg h0.ne', if_neg h1.ne, Bezier.split_arr 4 P _ t0 h0 (by linarith)]
    simp only [ok_bind, rd, List.getElem?_cons_succ, List.getElem?_cons_zero]
    rw [Bezier.split_arr 4 _ _ t1 (by linarith) h1]
    rfl
  · refine arr_congr fun i hi => ?_
    exact umb_sub_compose 2 P t0 t1 (by omega)

/-- The control points of the parabola `(t, t²)` as a cubic. -/
noncomputable def parabola (i : ℕ) : ℝ × ℝ := ((i : ℝ) / 3, (i : ℝ) * ((i : ℝ) - 1) / 6)

theorem parabola_tangent (t : ℝ) : tangent 2 parabola t = (1, 2 * t) := by
  rw [tangent, umb_lin_pow]
  simp only [sum_range_succ, range_zero, sum_empty, Spec.bernstein, diff, parabola]
  ext
  · norm_num [Nat.choose]; ring
  · norm_num [Nat.choose]; ring

theorem parabola_angle (a b : ℝ) : Angle (fun t => ((1 : ℝ), 2 * t)) a b (fun t => Real.arctan (2 * t)) := by
  refine ⟨by fun_prop, fun t _ _ => ⟨√(1 + (2 * t) ^ 2), by positivity, ?_⟩⟩
  have h : √(1 + (2 * t) ^ 2) ≠ 0 := by positivity
  ext
  · simp only [dir, Real.cos_arctan, Prod.smul_fst, smul_eq_mul]; field_simp
  · simp only [dir, Real.sin_arctan, Prod.smul_snd, smul_eq_mul]; field_simp

theorem umb_const (v : ℝ) (f : ℝ[X]) : umb (fun _ => v) f = f.eval 1 * v := by
  induction f using Polynomial.induction_on' with
  | add p q hp hq => rw [map_add, hp, hq, eval_add, add_mul]
  | monomial i a => simp [umb_monomial]

theorem parabola_half (t0 t1 : ℝ) (h : t0 < t1) :
    HalfPlane (1, 0) (arr 4 (sub 2 parabola t0 t1)) := by
  intro i p q hp hq
  have hi : i ≤ 2 := by
    have := (List.getElem?_eq_some_iff.1 hq).1
    simp at this; omega
  rw [arr_getElem?_of_lt (by omega), Option.some.injEq] at hp hq
  have e := sub_edge 2 parabola t0 t1 i hi
  have e1 : q.1 - p.1 = (t1 - t0) * (1 / 3) := by
    have := congrArg Prod.fst e
    rw [Prod.fst_sub, hp, hq, Prod.smul_fst] at this
    rw [this]
    have := umb_map (LinearMap.fst ℝ ℝ ℝ) (diff parabola) (lin t0 ^ (2 - i) * lin t1 ^ i)
    rw [LinearMap.fst_apply] at this
    rw [this]
    have hc : (fun j => (LinearMap.fst ℝ ℝ ℝ) (diff parabola j)) = fun _ => (1 / 3 : ℝ) := by
      funext j; simp [diff, parabola]; ring
    rw [hc, umb_const]
    simp [lin]
  rw [e1]
  simp; linarith

/-- **C75** (cubic class): false for inner ranges.  On `[1/4, 1/2]` of the parabola the result is the rotation
over `[1/4, 5/8]`. -/
theorem C75_cubic_refuted :
    ∃ theta theta' d, bezier3 { ctrl := [(0, 0), (1 / 3, 0), (2 / 3, 1 / 3), (1, 1)] } (1 / 4) (1 / 2) = ok theta ∧
      (∀ t : ℝ, Bezier.evaluateDerivative
        (Bezier.mk [((0 : ℝ), (0 : ℝ)), (1 / 3, 0), (2 / 3, 1 / 3), (1, 1)] false) t = ok (d t)) ∧
      Rotates d (1 / 4) (1 / 2) theta' ∧ theta ≠ theta' := by
  have hex : [((0 : ℝ), (0 : ℝ)), (1 / 3, 0), (2 / 3, 1 / 3), (1, 1)] = arr 4 parabola := by
    simp [arr, parabola, List.range, List.range.loop]; norm_num
  rw [hex]
  have hd : ∀ t : ℝ, Bezier.evaluateDerivative ({ ctrl := arr 4 parabola } : Bezier (ℝ × ℝ)) t
      = ok ((fun t => ((1 : ℝ), 2 * t)) t) := by
    intro t; rw [evaluateDerivative_tangent, parabola_tangent]
  obtain ⟨theta, h1, -, h2⟩ := C75_bezier_partial (c := { ctrl := arr 4 parabola }) rfl (by simp)
    (t0 := 1 / 4) (t1 := 1 / 4 + (1 - 1 / 4) * (1 / 2)) (by norm_num) (by norm_num) (by norm_num)
    (w := (1, 0))
    (by
      intro s hs
      rw [Bezier.subcurve_arr 3 parabola _ _ _ (by norm_num) (by norm_num) (by norm_num), ok.injEq] at hs
      rw [← hs]
      exact parabola_half _ _ (by norm_num))
    (fun t _ _ => hd t)
  refine ⟨theta, _, _, ?_, hd, ⟨_, parabola_angle _ _, rfl⟩, ?_⟩
  · rw [C75_cubic_actual (by simp) (by norm_num) (by norm_num) (by norm_num)]
    exact h1
  · have := C75_unique (by norm_num) h2 ⟨_, parabola_angle _ _, rfl⟩
    rw [this]
    intro h
    have h' : Real.arctan (2 * (1 / 4 + (1 - 1 / 4) * (1 / 2))) = Real.arctan (2 * (1 / 2)) := by linarith
    have := Real.arctan_injective h'
    norm_num at this

/-- Concrete case of `C75_bezier_partial` and `C75_cubic_partial`: the parabola turns by `π / 4` on `[0, 1/2]`. -/
example : bezier3 { ctrl := arr 4 parabola } 0 (1 / 2) = ok (Real.pi / 4) := by
  rw [C75_cubic_partial (by simp) (Or.inl ⟨rfl, by norm_num, by norm_num⟩)]
  obtain ⟨theta, h1, -, h2⟩ := C75_bezier_partial (c := { ctrl := arr 4 parabola }) rfl (by simp)
    (t0 := 0) (t1 := 1 / 2) (by norm_num) (by norm_num) (by norm_num) (w := (1, 0))
    (by
      intro s hs
      rw [Bezier.subcurve_arr 3 parabola _ _ _ (by norm_num) (by norm_num) (by norm_num), ok.injEq] at hs
      rw [← hs]
      exact parabola_half _ _ (by norm_num))
    (fun t _ _ => by rw [evaluateDerivative_tangent, parabola_tangent])
  rw [h1, C75_unique (by norm_num) h2 ⟨_, parabola_angle _ _, rfl⟩]
  norm_num

/-- Concrete case of `C75_quadratic`: the parabola as a quadratic, beyond `[0, 1]`. -/
example : ∃ theta, bezier2 { ctrl := [(0, 0), (1 / 2, 0), (1, 1)] } (-1) 2 = ok theta ∧
    Rotates (fun t => ((1 : ℝ), 2 * t)) (-1) 2 theta := by
  refine C75_quadratic rfl rfl (by norm_num) (fun t => ?_) (fun t _ _ h => ?_)
  · rw [← (Props.C02_degree2 ((0 : ℝ), (0 : ℝ)) (1 / 2, 0) (1, 1) false t).2.1]
    simp only [Bezier.evaluateDerivative2, Bezier.wrap, Bool.false_eq_true, if_false, ok_bind, rd,
      List.getElem?_cons_zero, List.getElem?_cons_succ, pure_eq, ok.injEq]
    ext
    · simp; ring
    · simp
  · have := congrArg Prod.fst h
    norm_num at this

/-! ### Other curves -/

/-- A retry loop moves the parameter a little or not at all. -/
theorem retry_spec {d1 : ℝ → Outcome (ℝ × ℝ)} {d : ℝ → ℝ × ℝ} {eps a b : ℝ} {step : ℝ → ℝ}
    (hd : ∀ t, a ≤ t → t ≤ b → d1 t = ok (d t)) (far : ℝ → ℝ) (delta : ℝ)
    (hstep : ∀ t, a ≤ t → t ≤ b → a ≤ step t ∧ step t ≤ b ∧ far (step t) ≤ far t + delta)
    (hdelta : 0 ≤ delta) :
    ∀ n t, a ≤ t → t ≤ b → ∃ s, retry d1 eps step n t (d t) = ok (s, d s) ∧ a ≤ s ∧ s ≤ b ∧
      far s ≤ far t + n * delta ∧ (eps ≤ Features.norm2 (d t) → s = t)
  | 0, t, h1, h2 => ⟨t, rfl, h1, h2, by simp, fun _ => rfl⟩
  | n + 1, t, h1, h2 => by
    rw [retry]
    by_cases h : Features.norm2 (d t) < eps
    · obtain ⟨g1, g2, g3⟩ := hstep t h1 h2
      obtain ⟨s, e, k1, k2, k3, -⟩ := retry_spec hd far delta hstep hdelta n (step t) g1 g2
      rw [if_pos h, hd _ g1 g2]
      refine ⟨s, e, k1, k2, ?_, fun h' => absurd h (not_lt.2 h')⟩
      push_cast
      linarith
    · rw [if_neg h]
      refine ⟨t, rfl, h1, h2, ?_, fun _ => rfl⟩
      have : 0 ≤ ((n + 1 : ℕ) : ℝ) * delta := by positivity
      linarith

/-- **C75** (the implementation of the curve base class): the two tangents are taken at most a hundredth of the
range from its ends, at the ends themselves if they are not shorter than `eps` there; if the tangent turns
by less than half a turn between them, the result is its rotation.  Missing: ranges over which the tangent turns
by half a turn or more. -/
theorem C75_curve_partial {d1 : ℝ → Outcome (ℝ × ℝ)} {d : ℝ → ℝ × ℝ} {eps t0 t1 : ℝ} (h01 : t0 ≤ t1)
    (hd : ∀ t, t0 ≤ t → t ≤ t1 → d1 t = ok (d t)) :
    ∃ theta s0 s1, curve eps d1 t0 t1 = ok theta ∧ t0 ≤ s0 ∧ s0 ≤ s1 ∧ s1 ≤ t1 ∧
      s0 ≤ t0 + (t1 - t0) / 100 ∧ t1 - (t1 - t0) / 100 ≤ s1 ∧
      (eps ≤ Features.norm2 (d t0) → s0 = t0) ∧ (eps ≤ Features.norm2 (d t1) → s1 = t1) ∧
      ∀ x, |x| < Real.pi → Rotates d s0 s1 x → theta = x := by
  obtain ⟨s0, e0, a1, a2, a3, a4⟩ := retry_spec (eps := eps)
    (step := fun t => t + (t1 - t) * (1 / 1000)) hd (fun t => t) ((t1 - t0) / 1000)
    (fun t g1 g2 => ⟨by linarith, by linarith, by linarith⟩) (by linarith) 10 t0 le_rfl h01
  obtain ⟨s1, e1, b1, b2, b3, b4⟩ := retry_spec (eps := eps) (a := s0) (b := t1)
    (step := fun t => t - (t - s0) * (1 / 1000)) (fun t g1 g2 => hd t (a1.trans g1) g2) (fun t => -t)
    ((t1 - t0) / 1000) (fun t g1 g2 => ⟨by linarith, by linarith, by linarith⟩) (by linarith) 10 t1 a2 le_rfl
  refine ⟨turn (d s0) (d s1), s0, s1, ?_, a1, b1, b2, ?_, ?_, a4, b4, ?_⟩
  · rw [curve, hd t0 le_rfl h01, ok_bind, hd t1 h01 le_rfl, ok_bind, e0, ok_bind, e1]; rfl
  · push_cast at a3; linarith
  · push_cast at b3; linarith
  · rintro x hx ⟨phi, hphi, rfl⟩
    exact turn_angle hphi ⟨le_rfl, b1⟩ ⟨b1, le_rfl⟩ hx

/-- The `i`-th of the `n` parameters at which a chain takes tangents. -/
noncomputable def node (n : ℕ) (t0 t1 : ℝ) (i : ℕ) : ℝ := t0 + (i : ℝ) / ((n : ℝ) - 1) * (t1 - t0)

theorem chain_eq {d1 : ℝ → Outcome (ℝ × ℝ)} {d : ℝ → ℝ × ℝ} {eps t0 t1 : ℝ} {n : ℕ} (hn : 2 ≤ n)
    (h01 : t0 ≤ t1) (hd : ∀ t, t0 ≤ t → t ≤ t1 → d1 t = ok (d t)) {phi : ℝ → ℝ} (hphi : Angle d t0 t1 phi)
    (hlong : ∀ i < n, eps ≤ Features.norm2 (d (node n t0 t1 i)))
    (hturn : ∀ i, i + 1 < n → |phi (node n t0 t1 (i + 1)) - phi (node n t0 t1 i)| < Real.pi) :
    chain eps d1 n t0 t1 = ok (phi t1 - phi t0) := by
  have hn1 : (0 : ℝ) < (n : ℝ) - 1 := by
    have : (2 : ℝ) ≤ n := by exact_mod_cast hn
    linarith
  have hmono : ∀ i j : ℕ, i ≤ j → node n t0 t1 i ≤ node n t0 t1 j := by
    intro i j h
    have : (i : ℝ) / ((n : ℝ) - 1) ≤ (j : ℝ) / ((n : ℝ) - 1) :=
      div_le_div_of_nonneg_right (by exact_mod_cast h) hn1.le
    have := mul_le_mul_of_nonneg_right this (sub_nonneg.2 h01)
    unfold node; linarith
  have n0 : node n t0 t1 0 = t0 := by simp [node]
  have nl : node n t0 t1 (n - 1) = t1 := by
    rw [node, Nat.cast_sub (by omega), Nat.cast_one, div_self hn1.ne']; ring
  have hin : ∀ i, i < n → t0 ≤ node n t0 t1 i ∧ node n t0 t1 i ≤ t1 := by
    intro i hi
    constructor
    · have := hmono 0 i (by omega); rwa [n0] at this
    · have := hmono i (n - 1) (by omega); rwa [nl] at this
  have key := loop_eq (fun j => (phi (node n t0 t1 j) - phi t0, node n t0 t1 j)) (n - 1)
    (fun j (s : ℝ × ℝ) => do
      let t := t0 + ((j + 1 : ℕ) : ℝ) / ((n : ℝ) - 1) * (t1 - t0)
      let a ← curve eps d1 s.2 t
      pure (s.1 + a, t)) (by
    intro j hj
    have i0 := hin j (by omega)
    have i1 := hin (j + 1) (by omega)
    have hle := hmono j (j + 1) (by omega)
    obtain ⟨theta, s0, s1, e, -, -, -, -, -, k0, k1, k⟩ := C75_curve_partial (eps := eps) hle
      (fun t g1 g2 => hd t (i0.1.trans g1) (g2.trans i1.2))
    have := k (phi (node n t0 t1 (j + 1)) - phi (node n t0 t1 j)) (hturn j (by omega)) (by
      rw [k0 (hlong j (by omega)), k1 (hlong (j + 1) (by omega))]
      exact ⟨phi, hphi.mono i0.1 i1.2, rfl⟩)
    have e' : curve eps d1 (node n t0 t1 j) (t0 + ((j + 1 : ℕ) : ℝ) / ((n : ℝ) - 1) * (t1 - t0)) = ok theta := e
    dsimp only
    rw [e', ok_bind, this, pure_eq]
    simp only [ok.injEq, Prod.mk.injEq]
    exact ⟨by ring, rfl⟩)
  simp only [n0, sub_self, nl] at key
  rw [chain, key]; rfl

/-- **C75** (rational Bézier curves): if the tangent turns by less than half a turn between any two of the `n`
evenly spaced parameters, and is not shorter than `eps` there, the result is its rotation, which may be
many turns.  Missing: coarser curves. -/
theorem C75_rational_partial {eps : ℝ} {c : RationalBezier ℝ (ℝ × ℝ)} {t0 t1 : ℝ} (h01 : t0 ≤ t1)
    (hn : 2 ≤ c.base.ctrl.length) {d : ℝ → ℝ × ℝ}
    (hd : ∀ t, t0 ≤ t → t ≤ t1 → c.evaluateDerivative t = ok (d t)) {phi : ℝ → ℝ} (hphi : Angle d t0 t1 phi)
    (hlong : ∀ i < c.base.ctrl.length, eps ≤ Features.norm2 (d (node c.base.ctrl.length t0 t1 i)))
    (hturn : ∀ i, i + 1 < c.base.ctrl.length →
      |phi (node c.base.ctrl.length t0 t1 (i + 1)) - phi (node c.base.ctrl.length t0 t1 i)| < Real.pi) :
    ∃ theta, rationalBezier eps c t0 t1 = ok theta ∧ Rotates d t0 t1 theta :=
  ⟨_, chain_eq hn h01 hd hphi hlong hturn, phi, hphi, rfl⟩

/-- **C75** (NURBS): as for rational Bézier curves. -/
theorem C75_nurbs_partial {eps : ℝ} {c : NURBS ℝ (ℝ × ℝ)} {t0 t1 : ℝ} (h01 : t0 ≤ t1)
    (hn : 2 ≤ c.base.ctrl.length) {d : ℝ → ℝ × ℝ}
    (hd : ∀ t, t0 ≤ t → t ≤ t1 → c.evaluateDerivative t = ok (d t)) {phi : ℝ → ℝ} (hphi : Angle d t0 t1 phi)
    (hlong : ∀ i < c.base.ctrl.length, eps ≤ Features.norm2 (d (node c.base.ctrl.length t0 t1 i)))
    (hturn : ∀ i, i + 1 < c.base.ctrl.length →
      |phi (node c.base.ctrl.length t0 t1 (i + 1)) - phi (node c.base.ctrl.length t0 t1 i)| < Real.pi) :
    ∃ theta, nurbs eps c t0 t1 = ok theta ∧ Rotates d t0 t1 theta :=
  ⟨_, chain_eq hn h01 hd hphi hlong hturn, phi, hphi, rfl⟩

/-- **C75** (circles): exact for counterclockwise frames, for any number of turns. -/
theorem C75_circle_partial {c : Circle (ℝ × ℝ)} (hr : 0 < c.radius) {t0 t1 : ℝ} (h01 : t0 ≤ t1)
    (he0 : c.e0.1 ^ 2 + c.e0.2 ^ 2 = 1) (he1 : c.e1 = (-c.e0.2, c.e0.1)) :
    ∃ theta, circle t0 t1 = ok theta ∧ Rotates c.evaluateDerivative t0 t1 theta := by
  refine ⟨t1 - t0, by rw [circle, assert_true h01]; rfl, ?_⟩
  obtain ⟨r, a, hr', e⟩ := exists_angle c.e0 (by
    intro h; rw [h] at he0; norm_num at he0)
  have hr1 : r = 1 := by
    rw [e] at he0
    have : r ^ 2 * (Real.cos a ^ 2 + Real.sin a ^ 2) = 1 := by
      rw [← he0]; simp only [dir, Prod.smul_fst, Prod.smul_snd, smul_eq_mul]; ring
    rw [Real.cos_sq_add_sin_sq, mul_one] at this
    nlinarith
  rw [hr1, one_smul] at e
  refine ⟨fun t => t + (a + Real.pi / 2), ⟨by fun_prop, fun t _ _ => ⟨c.radius, hr, ?_⟩⟩, by ring⟩
  rw [Circle.evaluateDerivative, he1, e]
  congr 1
  rw [← add_assoc]
  simp only [dir]
  rw [Real.cos_add_pi_div_two, Real.sin_add_pi_div_two, Real.cos_add, Real.sin_add]
  ext
  · simp; ring
  · simp; ring

/-- Concrete case of `C75_circle_partial`. -/
example : ∃ theta, circle 1 20 = ok theta ∧
    Rotates (Circle.evaluateDerivative ⟨((3 : ℝ), (4 : ℝ)), (3 / 5, 4 / 5), (-(4 / 5), 3 / 5), 2, 0, 30, false⟩)
      1 20 theta :=
  C75_circle_partial (c := ⟨(3, 4), (3 / 5, 4 / 5), (-(4 / 5), 3 / 5), 2, 0, 30, false⟩) (by norm_num)
    (by norm_num) (by norm_num) rfl

/-- **C75** (circles): the sign is wrong for clockwise frames, which the class accepts. -/
theorem C75_circle_refuted (t0 t1 : ℝ) (h : t0 < t1) :
    ∃ theta, circle t0 t1 = ok theta ∧
      Rotates (Circle.evaluateDerivative ⟨((0 : ℝ), (0 : ℝ)), (1, 0), (0, -1), 1, 0, 2 * Real.pi, true⟩) t0 t1 (-theta) ∧
      theta ≠ -theta := by
  refine ⟨t1 - t0, by rw [circle, assert_true h.le]; rfl, ?_, by intro g; linarith⟩
  refine ⟨fun t => -t - Real.pi / 2, ⟨by fun_prop, fun t _ _ => ⟨1, one_pos, ?_⟩⟩, by ring⟩
  rw [Circle.evaluateDerivative, dir, Real.cos_sub_pi_div_two, Real.sin_sub_pi_div_two]
  ext <;> simp

/-- Concrete case of the chain: the derivative of the unit circle, as a curve with `9` control points, over three
turns. -/
example : chain (1 / 2) (fun t => ok (dir t)) 9 0 (6 * Real.pi) = ok (6 * Real.pi) := by
  have := chain_eq (d1 := fun t => ok (dir t)) (d := dir) (eps := 1 / 2) (n := 9) (t0 := 0)
    (t1 := 6 * Real.pi) (by norm_num) (by positivity) (fun _ _ _ => rfl) (phi := fun t => t)
    ⟨by fun_prop, fun t _ _ => ⟨1, one_pos, by simp⟩⟩
    (fun i _ => by
      simp only [Features.norm2, dir, ← sq, Real.cos_sq_add_sin_sq, Real.sqrt_one]; norm_num)
    (fun i _ => by
      have hpi := Real.pi_pos
      simp only [node]
      push_cast
      have : (0 : ℝ) + (i + 1) / (9 - 1) * (6 * Real.pi - 0) - (0 + i / (9 - 1) * (6 * Real.pi - 0))
        = 3 / 4 * Real.pi := by ring
      rw [this, abs_of_pos (by positivity)]
      linarith)
  simpa using this

end Turning
end NS
