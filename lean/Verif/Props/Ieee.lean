import Verif.Proof.IeeeFormat
import Verif.Proof.IeeeBSpline
import Verif.Proof.FloatEval
import Verif.Props.Rational

/-!
# Property C104: finite control points give finite points

`A` is any format with a largest number and gradual underflow whose rounding is to nearest
(`Format.Safe`), in particular IEEE double and single precision (`binary_safe`), and `F` any choice of
the compiler to contract products and sums.
-/

set_option linter.unusedSectionVars false

namespace NS.Ieee

open Outcome Finset Spec

section General

variable {K ι : Type} [Field K] [LinearOrder K] [IsStrictOrderedRing K] [FloorRing K]

/-- A point with finite coordinates. -/
def lift (x : ι → K) : ι → Num K := fun i => .fin (x i)

theorem getD_lift (l : List (ι → K)) (j : ℕ) : (l.map lift).getD j 0 = lift (l.getD j 0) := by
  by_cases h : j < l.length
  · simp [h]
  · simp only [List.getD_eq_getElem?_getD, List.getElem?_map, List.getElem?_eq_none (not_lt.1 h)]
    rfl

theorem map_ne {l : List (ι → K)} (hl : l ≠ []) : l.map lift ≠ [] := by simpa using hl

/-- C104: a Bézier curve of any degree with finite control points has finite points on the unit
interval, whatever the magnitude of its control points, and the error is bounded by rounding and
underflow. -/
theorem C104_bezier {A : Format K} (hA : A.Safe) (F : ℕ → ℕ → ι → Fuse) (l : List (ι → K))
    (hl : l ≠ []) (hb : ∀ x ∈ l, ∀ i, |x i| ≤ A.big) {t : K} (ht : A.IsFloat t) (h0 : 0 ≤ t)
    (h1 : t ≤ 1) :
    ∃ q, bezierEvaluate A F { ctrl := l.map lift } (.fin t) = ok (lift q) ∧
      ∀ i, |q i| ≤ A.big ∧ ∀ M, (∀ x ∈ l, |x i| ≤ M) →
        |q i - bezierPoint l t i| ≤ (1 + A.unit) ^ (3 * (l.length - 1)) *
          (M + 2 * (l.length - 1 : ℕ) * A.eta) - M := by
  have fin := fun i => tri_fin hA F ht h0 h1 (fun j => (l.map lift).getD j 0) (fun j => l.getD j 0) i
    (fun j => by rw [getD_lift]; rfl)
    (fun j => Fl.bound_getD hl (fun x hx => hb x hx i) j) (l.length - 1) (l.length - 1)
  refine ⟨tri (stepK A F t) (fun j => l.getD j 0) (l.length - 1) (l.length - 1), ?_, fun i =>
    ⟨(fin i).2, fun M hM => ?_⟩⟩
  · rw [bezierEvaluate_eq A F _ (map_ne hl) false (t' := .fin t) rfl, List.length_map]
    congr 1
    funext i
    exact (fin i).1
  · have h := (tri_err A F ht h0 h1 (fun j => l.getD j 0) (fun j => l.getD j 0) i
      (fun j => Fl.bound_getD hl hM j) le_rfl (fun j => by simp) (l.length - 1) (l.length - 1)).1
    rw [Fl.dcv_bezierPoint l hl, Format.bound, ← pow_mul] at h
    exact h

theorem comb_zero (A : Format K) (f : Fuse) (a : K) {b : K} (hb : A.rnd b = b) :
    A.comb f 0 a 1 b = b := by
  cases f <;> simp [Format.comb, A.zero, hb]

theorem comb_one (A : Format K) (f : Fuse) {a : K} (b : K) (ha : A.rnd a = a) :
    A.comb f 1 a 0 b = a := by
  cases f <;> simp [Format.comb, A.zero, ha]

theorem triK_zero (A : Format K) (F : ℕ → ℕ → ι → Fuse) {P : ℕ → ι → K}
    (hP : ∀ j i, A.rnd (P j i) = P j i) (r : ℕ) : ∀ j, tri (stepK A F 0) P r j = P (j - r) := by
  induction r with
  | zero => intro j; rfl
  | succ r ih =>
    intro j
    funext i
    simp only [tri, stepK, sub_zero, A.one, ih]
    rw [comb_zero A _ _ (hP _ _), Nat.sub_sub, add_comm 1]

theorem triK_one (A : Format K) (F : ℕ → ℕ → ι → Fuse) {P : ℕ → ι → K}
    (hP : ∀ j i, A.rnd (P j i) = P j i) (r : ℕ) : ∀ j, tri (stepK A F 1) P r j = P j := by
  induction r with
  | zero => intro j; rfl
  | succ r ih =>
    intro j
    funext i
    simp only [tri, stepK, sub_self, A.zero, ih]
    rw [comb_one A _ _ (hP _ _)]

theorem float_getD {A : Format K} {l : List (ι → K)} (h : ∀ x ∈ l, ∀ i, A.IsFloat (x i)) (j : ℕ)
    (i : ι) : A.rnd (l.getD j 0 i) = l.getD j 0 i := by
  by_cases hj : j < l.length
  · rw [Fl.getD_of_lt _ hj]; exact h _ (List.getElem_mem hj) i
  · rw [Fl.getD_of_le _ (not_lt.1 hj)]; exact A.zero

/-- C104: the ends of a Bézier curve are its first and last control point bit by bit, also for
subnormal control points and for the largest number. -/
theorem C104_bezier_ends {A : Format K} (hA : A.Safe) (F : ℕ → ℕ → ι → Fuse) (l : List (ι → K))
    (hl : l ≠ []) (hb : ∀ x ∈ l, ∀ i, |x i| ≤ A.big) (hf : ∀ x ∈ l, ∀ i, A.IsFloat (x i)) :
    bezierEvaluate A F { ctrl := l.map lift } (.fin 0) = ok (lift (l.head hl)) ∧
      bezierEvaluate A F { ctrl := l.map lift } (.fin 1) = ok (lift (l.getLast hl)) := by
  have h0 : 0 < l.length := List.length_pos_of_ne_nil hl
  have fin := fun (t : K) ht h0 h1 i => (tri_fin hA F (t := t) ht h0 h1
    (fun j => (l.map lift).getD j 0) (fun j => l.getD j 0) i (fun j => by rw [getD_lift]; rfl)
    (fun j => Fl.bound_getD hl (fun x hx => hb x hx i) j) (l.length - 1) (l.length - 1)).1
  constructor
  · rw [bezierEvaluate_eq A F _ (map_ne hl) false (t' := .fin 0) rfl, List.length_map]
    congr 1
    funext i
    rw [fin 0 A.zero le_rfl zero_le_one i, triK_zero A F (float_getD hf), Nat.sub_self,
      Fl.getD_of_lt _ h0, List.head_eq_getElem]
    rfl
  · rw [bezierEvaluate_eq A F _ (map_ne hl) false (t' := .fin 1) rfl, List.length_map]
    congr 1
    funext i
    rw [fin 1 A.one zero_le_one le_rfl i, triK_one A F (float_getD hf),
      Fl.getD_of_lt _ (by omega), List.getLast_eq_getElem]
    rfl

/-! ### Derivatives -/

theorem bezierDerivCoef_arr (A : Format K) (d n : ℕ) (P : ℕ → ι → Num K) (hd : d < n) :
    bezierDerivCoef A d (arr n P) = ok (arr n (fun j => if j < d then
      fun l => A.round (Num.mul (.fin (d : K)) (A.sub (P (j + 1) l) (P j l))) else P j)) := by
  unfold bezierDerivCoef
  have h := loop_eq (S := fun i => arr n (fun j => if j < i then
      fun l => A.round (Num.mul (.fin (d : K)) (A.sub (P (j + 1) l) (P j l))) else P j)) d
    (fun i c => do
      let a ← rd c (i + 1)
      let b ← rd c i
      wr c i (fun l => A.round (Num.mul (.fin (d : K)) (A.sub (a l) (b l))))) ?_
  · simpa using h
  · intro i hi
    rw [rd_arr (by omega), ok_bind, rd_arr (by omega), ok_bind]
    apply wr_arr _ (by omega)
    intro j hj
    by_cases h1 : j = i
    · subst h1; simp
    · by_cases h2 : j < i
      · simp [h1, h2, show j < i + 1 by omega]
      · simp [h1, h2, show ¬ j < i + 1 by omega]

/-- C104: the derivative of a Bézier curve of degree `n + 1` is finite as long as the control points
leave room for the differences. -/
theorem C104_derivative_partial {A : Format K} (hA : A.Safe) (F : ℕ → ℕ → ι → Fuse) (n : ℕ)
    (P : ℕ → ι → K) (hf : ∀ j i, A.IsFloat (P j i)) {M : K} (hM : ∀ j i, |P j i| ≤ M)
    (hroom : (1 + A.unit) * ((n + 1 : ℕ) * (2 * M)) ≤ A.big) {t : K} (ht : A.IsFloat t)
    (h0 : 0 ≤ t) (h1 : t ≤ 1) :
    ∃ q e, bezierDerivative A F { ctrl := (arr (n + 2) P).map lift } (.fin t) = ok (lift q) ∧
      Bezier.evaluateDerivative { ctrl := arr (n + 2) P } t = ok e ∧
      ∀ i, |q i - e i| ≤ (1 + A.unit) ^ (3 * n) * ((1 + A.unit) ^ 2 * ((n + 1 : ℕ) * (2 * M))
        + A.eta + 2 * n * A.eta) - (n + 1 : ℕ) * (2 * M) := by
  have hu := A.unit_nonneg
  set D : ℕ → ι → K := fun j l => ((n + 1 : ℕ) : K) * (P (j + 1) l - P j l) with hD
  set E : ℕ → ι → K := fun j l => A.rnd (((n + 1 : ℕ) : K) * A.rnd (P (j + 1) l - P j l)) with hE
  have hn1 : (1 : K) ≤ ((n + 1 : ℕ) : K) := by exact_mod_cast Nat.le_add_left 1 n
  have hdiff : ∀ j i, |P (j + 1) i - P j i| ≤ 2 * M := by
    intro j i
    refine (abs_sub _ _).trans ?_
    linarith [hM (j + 1) i, hM j i]
  have hM0 : ∀ i : ι, 0 ≤ M := fun i => (abs_nonneg _).trans (hM 0 i)
  have hrd : ∀ j i, |A.rnd (P (j + 1) i - P j i) - (P (j + 1) i - P j i)| ≤ A.unit * (2 * M) := by
    intro j i
    have := A.sum_near (P (j + 1) i) (-P j i) (hf _ _) (by rw [A.odd, hf])
    rw [← sub_eq_add_neg] at this
    exact this.trans (mul_le_mul_of_nonneg_left (hdiff j i) hu)
  have hra : ∀ j i, |A.rnd (P (j + 1) i - P j i)| ≤ (1 + A.unit) * (2 * M) := by
    intro j i
    have h3 := abs_le.1 (hrd j i)
    have h4 := abs_le.1 (hdiff j i)
    rw [abs_le]
    constructor <;> linarith [h3.1, h3.2, h4.1, h4.2]
  have hprod : ∀ j i, |((n + 1 : ℕ) : K) * A.rnd (P (j + 1) i - P j i)|
      ≤ (1 + A.unit) * ((n + 1 : ℕ) * (2 * M)) := by
    intro j i
    rw [abs_mul, abs_of_nonneg (by linarith : (0 : K) ≤ ((n + 1 : ℕ) : K))]
    have := mul_le_mul_of_nonneg_left (hra j i) (by linarith : (0 : K) ≤ ((n + 1 : ℕ) : K))
    linarith
  have hEb : ∀ j i, |E j i| ≤ A.big := fun j i => A.abs_le_big ((hprod j i).trans hroom)
  have hDb : ∀ j i, |D j i| ≤ (n + 1 : ℕ) * (2 * M) := by
    intro j i
    rw [abs_mul, abs_of_nonneg (by linarith : (0 : K) ≤ ((n + 1 : ℕ) : K))]
    exact mul_le_mul_of_nonneg_left (hdiff j i) (by linarith)
  have hED : ∀ j i, |E j i - D j i| ≤ ((1 + A.unit) ^ 2 * ((n + 1 : ℕ) * (2 * M)) + A.eta)
      - (n + 1 : ℕ) * (2 * M) := by
    intro j i
    have e : E j i - D j i = (E j i - ((n + 1 : ℕ) : K) * A.rnd (P (j + 1) i - P j i))
        + ((n + 1 : ℕ) : K) * (A.rnd (P (j + 1) i - P j i) - (P (j + 1) i - P j i)) := by
      simp only [hD]; ring
    rw [e]
    refine (abs_add_le _ _).trans ?_
    rw [abs_mul, abs_of_nonneg (by linarith : (0 : K) ≤ ((n + 1 : ℕ) : K))]
    have g1 := A.near (((n + 1 : ℕ) : K) * A.rnd (P (j + 1) i - P j i))
    have g2 := mul_le_mul_of_nonneg_left (hrd j i) (by linarith : (0 : K) ≤ ((n + 1 : ℕ) : K))
    have g3 := mul_le_mul_of_nonneg_left (hprod j i) hu
    simp only [hE]
    linarith
  have hmap : (arr (n + 2) P).map lift = arr (n + 2) (fun j => lift (P j)) := by
    simp [arr, Function.comp_def]
  have hq : bezierDerivative A F { ctrl := arr (n + 2) fun j => lift (P j) } (.fin t)
      = ok (tri (step A F (.fin t)) (fun j => if j < n + 1 then lift (E j) else lift (P j)) n n) := by
    unfold bezierDerivative
    have hd : ({ ctrl := arr (n + 2) fun j => lift (P j) } : Bezier (ι → Num K)).degree
        = ((n + 1 : ℕ) : ℤ) := by
      simp [Bezier.degree]; omega
    rw [show bezierWrap A (Bezier.periodic { ctrl := arr (n + 2) fun j => lift (P j) }) (.fin t)
        = ok (.fin t) from rfl, ok_bind, hd, assert_true (by omega), ok_bind, if_neg (by omega),
      Int.toNat_natCast, bezierDerivCoef_arr A (n + 1) (n + 2) _ (by omega), ok_bind,
      show ((n + 1 : ℕ) : ℤ) - 1 = (n : ℤ) by omega,
      bezierDeBoor_eq A F (n + 1) (.fin t) n (n + 2) _ (by omega) (by omega)]
    congr 2
    funext j
    split_ifs with hj
    · funext i
      have hs : |P (j + 1) i - P j i| ≤ A.big := by
        refine (hdiff j i).trans (le_trans ?_ hroom)
        have hm : 0 ≤ 2 * M := by linarith [hM0 i]
        have h5 : 2 * M ≤ (n + 1 : ℕ) * (2 * M) := le_mul_of_one_le_left hm hn1
        have h6 := le_mul_of_one_le_left (hm.trans h5) (by linarith : 1 ≤ 1 + A.unit)
        linarith
      simp only [lift, A.sub_fin hs, Num.mul]
      exact A.round_fin (hEb j i)
    · rfl
  have he : Bezier.evaluateDerivative { ctrl := arr (n + 2) P } t
      = ok (Bezier.dcv (fun _ => t) D n n) := by
    rw [Bezier.evaluateDerivative_arr, Bezier.dcv_diag]
    have e : D = BSpline.diffQ (K := K) (n + 1) P := by
      funext j l
      simp [hD, BSpline.diffQ]
    rw [e, BSpline.umb_diffQ]
    congr 1
    simp [mul_comm]
  refine ⟨tri (stepK A F t) E n n, _, ?_, he, fun i => ?_⟩
  · rw [hmap, hq, Fl.tri_congr _ _ (fun j => lift (E j)) n n
      (fun j hj => by simp only [if_pos (by omega : j < n + 1)])]
    congr 1
    funext i
    exact (tri_fin hA F ht h0 h1 (fun j => lift (E j)) E i (fun _ => rfl) (fun j => hEb j i) n n).1
  · have hmb : ((n + 1 : ℕ) : K) * (2 * M) ≤ (1 + A.unit) ^ 2 * ((n + 1 : ℕ) * (2 * M)) + A.eta := by
      have hm : 0 ≤ ((n + 1 : ℕ) : K) * (2 * M) := by
        have := hM0 i
        positivity
      have := le_mul_of_one_le_left hm (one_le_pow₀ (n := 2) (by linarith : 1 ≤ 1 + A.unit))
      linarith [A.eta_nonneg]
    have h := (tri_err A F ht h0 h1 D E i (fun j => hDb j i) hmb (fun j => hED j i) n n).1
    rw [Format.bound, ← pow_mul] at h
    exact h

/-! ### Patches -/

/-- A patch with finite control points. -/
def liftPatch (p : BezierPatch (ι → K)) : BezierPatch (ι → Num K) :=
  { grid := p.grid.map lift, degU := p.degU, degV := p.degV, perU := p.perU, perV := p.perV }

theorem lift_getControlPoint {p : BezierPatch (ι → K)} {m n : ℕ} (h : p.WellFormed m n) {i j : ℕ}
    (hi : i < m + 1) (hj : j < n + 1) :
    (liftPatch p).getControlPoint i j = ok (lift (p.pts n i j)) := by
  have hlt : i * (n + 1) + j < p.grid.length := by
    rw [h.len]
    calc i * (n + 1) + j < (i + 1) * (n + 1) := by linarith
      _ ≤ _ := Nat.mul_le_mul_right _ hi
  have e : (liftPatch p).linearIndex i j = ok (i * (n + 1) + j) := by
    have : (liftPatch p).numV = ok (n + 1) := h.numV
    unfold BezierPatch.linearIndex
    rw [this]; rfl
  unfold BezierPatch.getControlPoint
  rw [e, ok_bind]
  change rd (p.grid.map lift) _ = _
  rw [rd_of_lt (by simpa using hlt)]
  simp [BezierPatch.pts, gridPoint, hlt]

theorem lift_isoCurvesV {p : BezierPatch (ι → K)} {m n : ℕ} (h : p.WellFormed m n) :
    (liftPatch p).isoCurvesV = ok (arr (m + 1) (fun i =>
      { ctrl := arr (n + 1) (fun j => lift (p.pts n i j)), periodic := p.perV })) := by
  unfold BezierPatch.isoCurvesV
  rw [show (liftPatch p).numU = ok (m + 1) from h.numU, ok_bind,
    show (liftPatch p).numV = ok (n + 1) from h.numV, ok_bind]
  apply tab_eq
  intro i hi
  rw [tab_eq (g := fun j => lift (p.pts n i j)) (fun j hj => lift_getControlPoint h hi hj), ok_bind]
  rfl

theorem lift_isoCurvesU {p : BezierPatch (ι → K)} {m n : ℕ} (h : p.WellFormed m n) :
    (liftPatch p).isoCurvesU = ok (arr (n + 1) (fun j =>
      { ctrl := arr (m + 1) (fun i => lift (p.pts n i j)), periodic := p.perU })) := by
  unfold BezierPatch.isoCurvesU
  rw [show (liftPatch p).numU = ok (m + 1) from h.numU, ok_bind,
    show (liftPatch p).numV = ok (n + 1) from h.numV, ok_bind]
  apply tab_eq
  intro j hj
  rw [tab_eq (g := fun i => lift (p.pts n i j)) (fun i hi => lift_getControlPoint h hi hj), ok_bind]
  rfl

theorem tri_lift {A : Format K} (hA : A.Safe) (F : ℕ → ℕ → ι → Fuse) {t : K} (hf : A.rnd t = t)
    (h0 : 0 ≤ t) (h1 : t ≤ 1) (Q : ℕ → ι → K) (hb : ∀ j i, |Q j i| ≤ A.big) (r j : ℕ) :
    tri (step A F (.fin t)) (fun j => lift (Q j)) r j = lift (tri (stepK A F t) Q r j) ∧
      ∀ i, |tri (stepK A F t) Q r j i| ≤ A.big := by
  have := fun i => tri_fin hA F hf h0 h1 (fun j => lift (Q j)) Q i (fun _ => rfl) (fun j => hb j i) r j
  exact ⟨funext fun i => (this i).1, fun i => (this i).2⟩

/-- C104: points of a Bézier patch with finite control points are finite. -/
theorem C104_patch {A : Format K} (hA : A.Safe) (F : ℕ → ℕ → ℕ → ι → Fuse) (G : ℕ → ℕ → ι → Fuse)
    (p : BezierPatch (ι → K)) (m n : ℕ) (hp : p.WellFormed m n) (hu : p.perU = false)
    (hv : p.perV = false) (hb : ∀ x ∈ p.grid, ∀ i, |x i| ≤ A.big) {u v : K} (fu : A.IsFloat u)
    (fv : A.IsFloat v) (u0 : 0 ≤ u) (u1 : u ≤ 1) (v0 : 0 ≤ v) (v1 : v ≤ 1) :
    ∃ q e, patchEvaluate A F G (liftPatch p) (.fin u) (.fin v) = ok (lift q) ∧
      p.evaluate u v = ok e ∧
      ∀ i, |q i| ≤ A.big ∧ ∀ M, (∀ x ∈ p.grid, |x i| ≤ M) →
        |q i - e i| ≤ (1 + A.unit) ^ (3 * (m + n)) * (M + 2 * (m + n : ℕ) * A.eta) - M := by
  have hun := A.unit_nonneg
  have heta := A.eta_nonneg
  have hne : p.grid ≠ [] := by
    intro h
    have := hp.len
    rw [h] at this
    simp at this
  have w1 : bezierWrap A p.perU (.fin u) = ok (.fin u) := by rw [hu]; rfl
  have w2 : bezierWrap A p.perV (.fin v) = ok (.fin v) := by rw [hv]; rfl
  have x1 : Bezier.wrap p.perU u = ok u := by rw [hu]; rfl
  have x2 : Bezier.wrap p.perV v = ok v := by rw [hv]; rfl
  have hpb : ∀ x y i, |p.pts n x y i| ≤ A.big := fun x y i =>
    Fl.bound_getD hne (fun z hz => hb z hz i) _
  have two : ∀ (s t : K) (_ : A.rnd s = s) (_ : A.rnd t = t) (_ : 0 ≤ s) (_ : s ≤ 1) (_ : 0 ≤ t)
      (_ : t ≤ 1) (a b : ℕ) (P : ℕ → ℕ → ι → K) (i : ι) (M : K), (∀ x y, |P x y i| ≤ M) →
      |tri (stepK A G t) (fun y => tri (stepK A (F y) s) (P y) a a) b b i
        - Bezier.dcv (fun _ => t) (fun y => Bezier.dcv (fun _ => s) (P y) a a) b b i|
        ≤ (1 + A.unit) ^ (3 * (a + b)) * (M + 2 * (a + b : ℕ) * A.eta) - M := by
    intro s t fs ft hs0 hs1 ht0 ht1 a b P i M hP
    have hM0 : 0 ≤ M := (abs_nonneg _).trans (hP 0 0)
    have inner := fun y => tri_err A (F y) fs hs0 hs1 (P y) (P y) i (hP y) le_rfl
      (fun j => by simp) a a
    have hg : 1 + A.unit ≤ (1 + A.unit) ^ 3 := le_self_pow₀ (by linarith) (by norm_num)
    have h := (tri_err A G ft ht0 ht1 (fun y => Bezier.dcv (fun _ => s) (P y) a a)
      (fun y => tri (stepK A (F y) s) (P y) a a) i (fun y => (inner y).2)
      (A.le_bound hg hM0 a) (fun y => (inner y).1) b b).1
    refine h.trans (sub_le_sub_right ?_ M)
    unfold Format.bound
    rw [mul_add 3, pow_add, pow_mul, pow_mul]
    set g := (1 + A.unit) ^ 3 with hgdef
    have hga : (1 : K) ≤ g ^ a := one_le_pow₀ (by linarith)
    have hgb : (1 : K) ≤ g ^ b := one_le_pow₀ (by linarith)
    have hb0 : (0 : K) ≤ 2 * b * A.eta := by positivity
    have h3 : 2 * (b : K) * A.eta ≤ g ^ a * (2 * b * A.eta) := le_mul_of_one_le_left hb0 hga
    push_cast
    have : g ^ b * (g ^ a * (M + 2 * a * A.eta) + 2 * b * A.eta)
        ≤ g ^ b * (g ^ a * (M + 2 * a * A.eta) + g ^ a * (2 * b * A.eta)) :=
      mul_le_mul_of_nonneg_left (by linarith) (by linarith)
    refine this.trans (le_of_eq ?_)
    ring
  have dcvu : ∀ (P : ℕ → ι → K) (t : K) (d : ℕ), umb P (lin t ^ d) = Bezier.dcv (fun _ => t) P d d := by
    intro P t d
    rw [Bezier.dcv_diag]; simp
  unfold patchEvaluate BezierPatch.evaluate
  by_cases hdeg : p.degV > p.degU
  · rw [if_pos (show (liftPatch p).degV > (liftPatch p).degU from hdeg), if_pos hdeg]
    have inn := fun y => tri_lift hA (F y) fu u0 u1 (fun x => p.pts n x y) (fun x i => hpb x y i) m m
    have out := tri_lift hA G fv v0 v1 _ (fun y i => (inn y).2 i) n n
    refine ⟨_, Bezier.dcv (fun _ => v) (fun y => Bezier.dcv (fun _ => u)
      (fun x => p.pts n x y) m m) n n, ?_, ?_, fun i => ⟨out.2 i, fun M hM =>
        two u v fu fv u0 u1 v0 v1 m n (fun y x => p.pts n x y) i M
          (fun _ _ => Fl.bound_getD hne hM _)⟩⟩
    · unfold isoCurveV
      rw [show (liftPatch p).numV = ok (n + 1) from hp.numV, ok_bind, lift_isoCurvesU hp, ok_bind,
        tab_eq (g := fun y => lift (tri (stepK A (F y) u) (fun x => p.pts n x y) m m))]
      · rw [ok_bind, pure_eq, ok_bind, bezierEvaluate_arr A G n _ _
          (show bezierWrap A (liftPatch p).perV (.fin v) = ok (.fin v) from w2), out.1]
      · intro j hj
        rw [rd_arr hj, ok_bind, bezierEvaluate_arr A _ m _ _ w1, (inn j).1]
    · rw [hp.isoCurveV x1, ok_bind, BezierPatch.evaluate_arr_wrap n _ _ x2, dcvu]
      simp only [dcvu]
  · rw [if_neg (show ¬ (liftPatch p).degV > (liftPatch p).degU from hdeg), if_neg hdeg]
    have inn := fun x => tri_lift hA (F x) fv v0 v1 (fun y => p.pts n x y) (fun y i => hpb x y i) n n
    have out := tri_lift hA G fu u0 u1 _ (fun y i => (inn y).2 i) m m
    refine ⟨_, Bezier.dcv (fun _ => u) (fun x => Bezier.dcv (fun _ => v)
      (p.pts n x) n n) m m, ?_, ?_, fun i => ⟨out.2 i, fun M hM => ?_⟩⟩
    · unfold isoCurveU
      rw [show (liftPatch p).numU = ok (m + 1) from hp.numU, ok_bind, lift_isoCurvesV hp, ok_bind,
        tab_eq (g := fun x => lift (tri (stepK A (F x) v) (fun y => p.pts n x y) n n))]
      · rw [ok_bind, pure_eq, ok_bind, bezierEvaluate_arr A G m _ _
          (show bezierWrap A (liftPatch p).perU (.fin u) = ok (.fin u) from w1), out.1]
      · intro j hj
        rw [rd_arr hj, ok_bind, bezierEvaluate_arr A _ n _ _ w2, (inn j).1]
    · rw [hp.isoCurveU x2, ok_bind, BezierPatch.evaluate_arr_wrap m _ _ x1, dcvu]
      simp only [dcvu]
    · rw [add_comm m n]
      exact two v u fv fu v0 v1 u0 u1 n m (fun x y => p.pts n x y) i M
        (fun _ _ => Fl.bound_getD hne hM _)

/-! ### B-splines -/

/-- A spline with finite control points. -/
def liftSpline (c : BSpline K (ι → K)) : BSpline K (ι → Num K) :=
  { ctrl := c.ctrl.map lift, knots := c.knots, periodic := c.periodic, sdeg := c.sdeg }

/-- Non-empty spans of the domain are longer than the `1e-16` of the evaluation code. -/
def WideI (A : Format K) (u : List K) (n p : ℕ) : Prop :=
  ∀ i, p ≤ i → i < n → knot u i < knot u (i + 1) →
    A.rnd (BSpline.tiny K) < A.rnd (knot u (i + 1) - knot u i)

theorem skel_wf {c : BSpline K (ι → K)} {p : ℕ} (hc : BSpline.WellFormed c p) :
    BSpline.WellFormed (skel (liftSpline c)) p :=
  ⟨by simpa [skel, liftSpline] using hc.len, hc.sdeg, by simpa [skel, liftSpline] using hc.ctrl,
    hc.sorted, by simpa [skel, liftSpline] using hc.dom⟩

/-- C104: a B-spline with finite control points and knots has finite points on its domain. -/
theorem C104_bspline {A : Format K} (hA : A.Safe) (hu1 : A.unit < 1) (F : ℕ → ℕ → ι → Fuse)
    {c : BSpline K (ι → K)} {p : ℕ} (hc : BSpline.WellFormed c p) (hper : c.periodic = false)
    (hb : ∀ x ∈ c.ctrl, ∀ i, |x i| ≤ A.big) (hk : ∀ x ∈ c.knots, A.IsFloat x)
    (hkb : ∀ x ∈ c.knots, ∀ y ∈ c.knots, x - y ≤ A.big) (hw : WideI A c.knots c.ctrl.length p)
    {t : K} (ht : A.IsFloat t) (hf : BSpline.FirstSpan c p ∨ knot c.knots p < t)
    (h1 : knot c.knots p ≤ t) (h2 : t ≤ knot c.knots c.ctrl.length) :
    ∃ q, bsplineEvaluate A F (liftSpline c) (.fin t) = ok (lift q) ∧
      ∀ i, |q i| ≤ A.big ∧ ∀ M, (∀ x ∈ c.ctrl, |x i| ≤ M) →
        |q i - bsplinePoint p c.knots c.ctrl t i|
          ≤ ((1 + A.unit) ^ 3 + 2 * ((1 + A.unit) ^ 2 / (1 - A.unit) - 1 + A.eta)) ^ p
            * (M + 2 * p * A.eta) - M := by
  have hl := hc.len
  have hn := hc.ctrl
  have hne : c.ctrl ≠ [] := by intro h; rw [h] at hn; simp at hn
  have hsf : BSpline.FirstSpan (skel (liftSpline c)) p ∨ knot (skel (liftSpline c)).knots p < t := hf
  obtain ⟨k, a1, a2, a3, a4, a5, a6, a7⟩ := BSpline.locateSpan_spec (skel_wf hc) t hsf
  have elen : (skel (liftSpline c)).ctrl.length = c.ctrl.length := by simp [skel, liftSpline]
  rw [elen] at a3 a5 a7
  change knot c.knots k < knot c.knots (k + 1) at a4
  change knot c.knots p ≤ t → t < knot c.knots c.ctrl.length →
    knot c.knots k ≤ t ∧ t < knot c.knots (k + 1) at a5
  change knot c.knots c.ctrl.length ≤ t → knot c.knots (k + 1) = knot c.knots c.ctrl.length at a7
  have hin : InSpan (knot c.knots) (knot c.knots c.ctrl.length) k t := by
    unfold InSpan
    split_ifs with h
    · exact ⟨a4, a7 h.ge⟩
    · exact a5 h1 (lt_of_le_of_ne h2 h)
  have hbd : knot c.knots k ≤ t ∧ t ≤ knot c.knots (k + 1) := by
    rcases h2.eq_or_lt with h | h
    · have := a7 h.ge
      rw [this]
      exact ⟨by rw [h, ← this]; exact a4.le, h2⟩
    · exact ⟨(a5 h1 h).1, (a5 h1 h).2.le⟩
  have hev := bsplineEvaluate_at A F (skel_wf hc) (t := .fin t) (t' := .fin t)
    (by simp [bsplineWrap, liftSpline, hper]) (by rw [locateSpan_fin]; exact a1) a2
    (by simpa [liftSpline] using a3)
  have e1 : k - p + p = k := by omega
  have e2 : k - p + (p + 1) = k + 1 := by omega
  have kmem : ∀ i, 1 ≤ i → i ≤ 2 * p → BSpline.loc (knot c.knots) k p i ∈ c.knots := by
    intro i g1 g2
    have hi : k - p + i < c.knots.length := by omega
    simp [BSpline.loc, knot, hi]
  have hv := BSpline.loc_mono hc.sorted (p := p) (k := k) a2 (by omega)
  have b1 : BSpline.loc (knot c.knots) k p p ≤ t := by simp only [BSpline.loc, e1]; exact hbd.1
  have b2 : t ≤ BSpline.loc (knot c.knots) k p (p + 1) := by simp only [BSpline.loc, e2]; exact hbd.2
  have fin := fun i => triB_fin hA F p (BSpline.loc (knot c.knots) k p) hv b1 b2
    (fun x y g1 g2 g3 => hkb _ (kmem y (by omega) g3) _ (kmem x g1 (by omega)))
    (fun j => (liftSpline c).ctrl.getD (k - p + j) 0) (fun j => c.ctrl.getD (k - p + j) 0) i
    (fun j _ => by rw [show (liftSpline c).ctrl = c.ctrl.map lift from rfl, getD_lift]; rfl)
    (fun j _ => Fl.bound_getD hne (fun x hx => hb x hx i) _) p le_rfl p le_rfl le_rfl
  have hwide : BSpline.Wide c p := by
    intro i g1 g2 g3
    have := hw i g1 g2 g3
    by_contra hc'
    exact absurd this (not_lt.2 (A.mono _ _ (not_lt.1 hc')))
  refine ⟨tri (stepBK A F p (BSpline.loc (knot c.knots) k p) t)
    (fun j => c.ctrl.getD (k - p + j) 0) p p, ?_, fun i => ⟨(fin i).2, fun M hM => ?_⟩⟩
  · rw [hev]
    congr 1
    funext i
    exact (fin i).1
  · rw [← Fl.dB_bsplinePoint hc hwide a2 a3 a4 hin hf h1 h2]
    exact (triB_err A hu1 F p _ hv b1 b2 (fun i g1 g2 => hk _ (kmem i g1 g2)) ht
      (by simp only [BSpline.loc, e1, e2]; exact hw k a2 a3 a4) _ M i
      (fun j => Fl.bound_getD hne hM _) p le_rfl p le_rfl le_rfl).1

/-! ### Rational curves -/

theorem hom_lift (A : Format K) (P : List (ι → K)) (w : List K) (h : P.length = w.length)
    (hb : ∀ j i, |P.getD j 0 i * w.getD j 0| ≤ A.big) :
    ∃ H : List (Option ι → Num K), homogenize A (P.map lift) (w.map .fin) = ok H ∧
      H.length = P.length ∧
      (∀ j i, H.getD j 0 (some i) = .fin (A.rnd (P.getD j 0 i * w.getD j 0))) ∧
      ∀ j, H.getD j 0 none = .fin (w.getD j 0) := by
  refine ⟨_, by unfold homogenize; rw [assert_true (by simpa using h), ok_bind]; rfl, by simp [h], ?_,
    ?_⟩
  · intro j i
    by_cases hj : j < P.length
    · rw [Fl.getD_of_lt _ (by simp; omega)]
      have := hb j i
      rw [Fl.getD_of_lt _ hj, Fl.getD_of_lt _ (by omega : j < w.length)] at this ⊢
      refine (congrFun (List.getElem_zipWith ..) (some i)).trans ?_
      simp only [List.getElem_map]
      exact A.round_fin (A.abs_le_big this)
    · rw [Fl.getD_of_le _ (by simp; omega), Fl.getD_of_le _ (not_lt.1 hj)]
      simp only [Pi.zero_apply, zero_mul, A.zero]
      rfl
  · intro j
    by_cases hj : j < P.length
    · rw [Fl.getD_of_lt _ (by simp; omega), Fl.getD_of_lt _ (by omega : j < w.length)]
      refine (congrFun (List.getElem_zipWith ..) none).trans ?_
      simp only [List.getElem_map]
    · rw [Fl.getD_of_le _ (by simp; omega), Fl.getD_of_le _ (by omega : w.length ≤ j)]
      rfl

/-- C104: points of a rational Bézier curve are finite as long as the products by the weights are
in range and the error of the common denominator is below the smallest weight. -/
theorem C104_rational_partial {A : Format K} (hA : A.Safe) (F : ℕ → ℕ → Option ι → Fuse)
    (P : List (ι → K)) (w : List K) (hP : P ≠ []) (hlen : P.length = w.length) {lo hi X : K}
    (hlo : 0 < lo) (hw : ∀ x ∈ w, lo ≤ x ∧ x ≤ hi) (hX : ∀ x ∈ P, ∀ i, |x i| ≤ X)
    (h1b : hi ≤ A.big) (h2b : X * hi ≤ A.big) {e1 e2 E : K}
    (he1 : e1 = (1 + A.unit) ^ (3 * (P.length - 1)) *
      ((1 + A.unit) * (X * hi) + A.eta + 2 * (P.length - 1 : ℕ) * A.eta) - X * hi)
    (he2 : e2 = (1 + A.unit) ^ (3 * (P.length - 1)) * (hi + 2 * (P.length - 1 : ℕ) * A.eta) - hi)
    (hden : e2 < lo) (hE : E = (e1 + X * e2) / (lo - e2)) (h3b : X + E ≤ A.big)
    {t : K} (ht : A.IsFloat t) (h0 : 0 ≤ t) (h1 : t ≤ 1) :
    ∃ q, rationalEvaluate A F (P.map lift) (w.map .fin) false (.fin t) = ok (lift q) ∧
      ∀ i, |q i - ratBezierPoint P w t i| ≤ E + A.unit * (X + E) + A.eta := by
  have hu := A.unit_nonneg
  have heta := A.eta_nonneg
  have hpos : 0 < P.length := List.length_pos_of_ne_nil hP
  have hwne : w ≠ [] := by rintro rfl; simp at hlen; exact hP hlen
  have hhi : 0 < hi := by
    obtain ⟨a, ha⟩ := List.exists_mem_of_ne_nil w hwne
    exact hlo.trans_le ((hw a ha).1.trans (hw a ha).2)
  set n := P.length - 1 with hn
  have hwd : ∀ j, 0 ≤ w.getD j 0 ∧ w.getD j 0 ≤ hi := by
    intro j
    by_cases hj : j < w.length
    · rw [Fl.getD_of_lt _ hj]
      have := hw _ (List.getElem_mem hj)
      exact ⟨hlo.le.trans this.1, this.2⟩
    · rw [Fl.getD_of_le _ (not_lt.1 hj)]; exact ⟨le_rfl, hhi.le⟩
  have hXd : ∀ j i, |P.getD j 0 i| ≤ X := fun j i => Fl.bound_getD hP (fun x hx => hX x hx i) j
  have hprod : ∀ j i, |P.getD j 0 i * w.getD j 0| ≤ X * hi := by
    intro j i
    rw [abs_mul, abs_of_nonneg (hwd j).1]
    exact mul_le_mul (hXd j i) (hwd j).2 (hwd j).1 ((abs_nonneg _).trans (hXd j i))
  obtain ⟨Q, hQ, hQl, hQs, hQn⟩ := hom_lift A P w hlen (fun j i => (hprod j i).trans h2b)
  have hQne : Q ≠ [] := by intro h; rw [h] at hQl; simp at hQl; omega
  -- the exact and the rounded homogeneous points
  set H : ℕ → Option ι → K := fun j o => match o with
    | some i => P.getD j 0 i * w.getD j 0
    | none => w.getD j 0 with hH
  set G : ℕ → Option ι → K := fun j o => match o with
    | some i => A.rnd (P.getD j 0 i * w.getD j 0)
    | none => w.getD j 0 with hG
  have hQG : (fun j => Q.getD j 0) = fun j => lift (G j) := by
    funext j o
    cases o with
    | none => exact hQn j
    | some i => exact hQs j i
  have hGb : ∀ j o, |G j o| ≤ A.big := by
    intro j o
    cases o with
    | none => simp only [hG]; rw [abs_of_nonneg (hwd j).1]; exact (hwd j).2.trans h1b
    | some i => exact A.abs_le_big ((hprod j i).trans h2b)
  have T := tri_lift hA F ht h0 h1 G hGb n n
  have hev : bezierEvaluate A F { ctrl := Q, periodic := false } (.fin t)
      = ok (lift (tri (stepK A F t) G n n)) := by
    rw [bezierEvaluate_eq A F Q hQne false (t' := .fin t) rfl, hQl, hQG, T.1]
  set W := ratBezierDen w t with hWdef
  have hW : W = ∑ k ∈ range (n + 1), bernstein n k t * w.getD k 0 := by
    rw [hWdef, ratBezierDen, ← hlen, show P.length = n + 1 by omega, Nat.add_sub_cancel]
  have hWlo : lo ≤ W := by
    rw [hW, ← one_mul lo, ← bernstein_sum n t, sum_mul]
    refine sum_le_sum fun k hk => mul_le_mul_of_nonneg_left ?_ (Props.bernstein_nonneg n k t h0 h1)
    rw [Fl.getD_of_lt _ (by simp at hk; omega)]
    exact (hw _ (List.getElem_mem _)).1
  have hWpos : 0 < W := hlo.trans_le hWlo
  have dn : Bezier.dcv (fun _ => t) H n n none = W := by
    have e : ∀ r j, Bezier.dcv (fun _ => t) H r j none
        = Bezier.dcv (V := K) (fun _ => t) (fun j => w.getD j 0) r j := by
      intro r
      induction r with
      | zero => intro j; rfl
      | succ r ih => intro j; simp only [Bezier.dcv, Pi.add_apply, Pi.smul_apply, ih]
    rw [e, Bezier.dcv_diag, hW]
    simp [umb_lin_pow]
  have ds : ∀ i, Bezier.dcv (fun _ => t) H n n (some i)
      = ∑ k ∈ range (n + 1), bernstein n k t * w.getD k 0 * P.getD k 0 i := by
    intro i
    have e : ∀ r j, Bezier.dcv (fun _ => t) H r j (some i)
        = Bezier.dcv (V := K) (fun _ => t) (fun j => P.getD j 0 i * w.getD j 0) r j := by
      intro r
      induction r with
      | zero => intro j; rfl
      | succ r ih => intro j; simp only [Bezier.dcv, Pi.add_apply, Pi.smul_apply, ih]
    rw [e, Bezier.dcv_diag]
    simp only [prod_const, card_range, umb_lin_pow, smul_eq_mul]
    exact sum_congr rfl fun k _ => by ring
  have en := (tri_err A F ht h0 h1 H G none (M := hi) (B := hi)
    (fun j => by simp only [hH]; rw [abs_of_nonneg (hwd j).1]; exact (hwd j).2) le_rfl
    (fun j => by simp [hH, hG]) n n).1
  rw [dn, Format.bound, ← pow_mul, ← he2] at en
  set d := tri (stepK A F t) G n n none with hd
  have hdlo : lo - e2 ≤ d := by linarith [(abs_le.1 en).1]
  have hdpos : 0 < d := by linarith
  have hgap : 0 < lo - e2 := by linarith
  have key : ∀ i, |tri (stepK A F t) G n n (some i) / d - ratBezierPoint P w t i| ≤ E ∧
      |ratBezierPoint P w t i| ≤ X := by
    intro i
    have hX0 : 0 ≤ X := (abs_nonneg _).trans (hXd 0 i)
    have hXh : 0 ≤ X * hi := mul_nonneg hX0 hhi.le
    have es := (tri_err A F ht h0 h1 H G (some i) (M := X * hi)
      (B := (1 + A.unit) * (X * hi) + A.eta) (fun j => hprod j i)
      (by nlinarith)
      (fun j => by
        simp only [hH, hG]
        refine le_trans (A.near _) ?_
        have := mul_le_mul_of_nonneg_left (hprod j i) hu
        linarith) n n).1
    rw [Format.bound, ← pow_mul, ← he1] at es
    set N := Bezier.dcv (fun _ => t) H n n (some i) with hN
    have ep : ratBezierPoint P w t i = N / W := by
      rw [hN, ds, ratBezierPoint, ← hWdef, ← hn, show P.length = n + 1 by omega]
      simp only [Pi.smul_apply, smul_eq_mul, Finset.sum_apply]
      rw [div_eq_inv_mul]
    have hNb : |N| ≤ X * W := by
      rw [hN, ds, hW, mul_sum]
      refine (abs_sum_le_sum_abs _ _).trans (sum_le_sum fun k _ => ?_)
      have hbn := Props.bernstein_nonneg (K := K) n k t h0 h1
      rw [abs_mul, abs_of_nonneg (mul_nonneg hbn (hwd k).1)]
      have := mul_le_mul_of_nonneg_left (hXd k i) (mul_nonneg hbn (hwd k).1)
      linarith
    have hq : |N / W| ≤ X := by
      rw [abs_div, abs_of_pos hWpos, div_le_iff₀ hWpos]; exact hNb
    rw [ep]
    refine ⟨?_, hq⟩
    set T1 := tri (stepK A F t) G n n (some i)
    have e : T1 / d - N / W = ((T1 - N) - N / W * (d - W)) / d := by
      field_simp
      ring
    rw [e, abs_div, abs_of_pos hdpos, hE]
    have num : |T1 - N - N / W * (d - W)| ≤ e1 + X * e2 := by
      refine (abs_sub _ _).trans ?_
      rw [abs_mul]
      exact add_le_add es (mul_le_mul hq en (abs_nonneg _) hX0)
    exact div_le_div₀ ((abs_nonneg _).trans num) num hgap hdlo
  refine ⟨fun i => A.rnd (tri (stepK A F t) G n n (some i) / d), ?_, fun i => ?_⟩
  · unfold rationalEvaluate
    rw [hQ, ok_bind, hev, ok_bind, pure_eq]
    congr 1
    funext i
    simp only [lift, Num.div]
    rw [if_neg (show tri (stepK A F t) G n n none ≠ 0 from hdpos.ne')]
    apply A.round_fin
    apply A.abs_le_big
    obtain ⟨k1, k2⟩ := key i
    have := abs_add_le (tri (stepK A F t) G n n (some i) / d - ratBezierPoint P w t i)
      (ratBezierPoint P w t i)
    rw [sub_add_cancel] at this
    linarith
  · obtain ⟨k1, k2⟩ := key i
    have a1 := A.near (tri (stepK A F t) G n n (some i) / d)
    have a2 := abs_add_le (tri (stepK A F t) G n n (some i) / d - ratBezierPoint P w t i)
      (ratBezierPoint P w t i)
    rw [sub_add_cancel] at a2
    have a3 := abs_add_le (A.rnd (tri (stepK A F t) G n n (some i) / d)
      - tri (stepK A F t) G n n (some i) / d)
      (tri (stepK A F t) G n n (some i) / d - ratBezierPoint P w t i)
    rw [sub_add_sub_cancel] at a3
    have a4 := mul_le_mul_of_nonneg_left (a2.trans (add_le_add k1 k2)) hu
    linarith

end General

end NS.Ieee
