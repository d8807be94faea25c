import Mathlib.Algebra.BigOperators.Pi
import Mathlib.LinearAlgebra.Dual.Lemmas
import Mathlib.Algebra.Order.BigOperators.Ring.Finset
import Verif.Model.LeastSquares
import Verif.Spec.LeastSquares
import Verif.Proof.BSplineMap

/-! # Linear maps commute with evaluation; the columns of the least-squares matrix -/

set_option linter.unusedSectionVars false
set_option linter.unusedSimpArgs false

namespace NS

open Outcome

theorem tab_image {α β : Type} {n : ℕ} {f : ℕ → Outcome α} {f' : ℕ → Outcome β} {φ : α → β}
    (h : ∀ i < n, f' i = φ <$> f i) : tab n f' = (List.map φ) <$> tab n f := by
  induction n with
  | zero => rfl
  | succ n ih =>
    rw [tab, tab]
    refine bind_map_rel (ih fun i hi => h i (by omega)) fun l _ => ?_
    refine bind_map_rel (h n (by omega)) fun a _ => ?_
    simp

namespace Bezier

variable {K V W : Type} [Field K] [LinearOrder K] [IsStrictOrderedRing K] [FloorRing K]
  [AddCommGroup V] [Module K V] [AddCommGroup W] [Module K W]

/-- Image of a curve. -/
def image (f : V → W) (c : Bezier V) : Bezier W := { ctrl := c.ctrl.map f, periodic := c.periodic }

variable (f : V →ₗ[K] W)

theorem blossom_image (bv : List K) (d : ℕ) (c : List V) :
    blossom bv d (c.map f) = (List.map f) <$> blossom bv d c := by
  unfold blossom
  apply forUp_map
  intro r q
  apply forDown_map
  intro j q
  refine bind_map_same fun t _ => ?_
  refine bind_map_rel (rd_map f _ _) fun x _ => bind_map_rel (rd_map f _ _) fun y _ => ?_
  rw [← wr_map]
  simp only [map_add, map_smul]

theorem evaluate_image (c : Bezier V) (t : K) : (image f c).evaluate t = f <$> c.evaluate t := by
  unfold evaluate
  refine bind_map_same fun t' _ => ?_
  have hd : (image f c).degree = c.degree := by simp [degree, image]
  rw [hd]
  unfold deBoor
  split
  · exact bind_map_rel (blossom_image f _ _ _) fun _ _ => rdI_map f _ _
  · rw [ok_bind, ok_bind]; exact rdI_map f _ _

end Bezier

namespace BezierPatch

variable {K V W : Type} [Field K] [LinearOrder K] [IsStrictOrderedRing K] [FloorRing K]
  [AddCommGroup V] [Module K V] [AddCommGroup W] [Module K W]

/-- Image of a patch. -/
def image (f : V → W) (p : BezierPatch V) : BezierPatch W :=
  { grid := p.grid.map f, degU := p.degU, degV := p.degV, perU := p.perU, perV := p.perV,
    sU := p.sU, sV := p.sV }

variable (f : V →ₗ[K] W) (p : BezierPatch V)

theorem numU_image : (image f p).numU = p.numU := rfl
theorem numV_image : (image f p).numV = p.numV := rfl

theorem init_image : (image f p).init = p.init := by
  unfold init
  rw [show (image f p).grid.length = p.grid.length by simp [image]]
  rfl

theorem getControlPoint_image (i j : ℕ) :
    (image f p).getControlPoint i j = f <$> p.getControlPoint i j := by
  unfold getControlPoint
  exact bind_map_same fun k _ => rd_map f _ _

theorem isoCurvesV_image :
    (image f p).isoCurvesV = (List.map (Bezier.image f)) <$> p.isoCurvesV := by
  unfold isoCurvesV
  refine bind_map_same fun m _ => bind_map_same fun n _ => ?_
  refine tab_image fun i _ => ?_
  exact bind_map_rel (tab_image fun j _ => getControlPoint_image f p i j) fun l _ => rfl

theorem isoCurvesU_image :
    (image f p).isoCurvesU = (List.map (Bezier.image f)) <$> p.isoCurvesU := by
  unfold isoCurvesU
  refine bind_map_same fun m _ => bind_map_same fun n _ => ?_
  refine tab_image fun i _ => ?_
  exact bind_map_rel (tab_image fun j _ => getControlPoint_image f p j i) fun l _ => rfl

theorem isoCurveU_image (v : K) :
    (image f p).isoCurveU v = Bezier.image f <$> p.isoCurveU v := by
  unfold isoCurveU
  refine bind_map_same fun m _ => ?_
  refine bind_map_rel (isoCurvesV_image f p) fun isos _ => ?_
  refine bind_map_rel (φ := List.map f) (tab_image fun i _ => ?_) fun l _ => rfl
  exact bind_map_rel (rd_map _ _ _) fun c _ => Bezier.evaluate_image f c v

theorem isoCurveV_image (u : K) :
    (image f p).isoCurveV u = Bezier.image f <$> p.isoCurveV u := by
  unfold isoCurveV
  refine bind_map_same fun m _ => ?_
  refine bind_map_rel (isoCurvesU_image f p) fun isos _ => ?_
  refine bind_map_rel (φ := List.map f) (tab_image fun i _ => ?_) fun l _ => rfl
  exact bind_map_rel (rd_map _ _ _) fun c _ => Bezier.evaluate_image f c u

theorem evaluate_image (u v : K) : (image f p).evaluate u v = f <$> p.evaluate u v := by
  unfold evaluate
  rw [show (image f p).degU = p.degU from rfl, show (image f p).degV = p.degV from rfl]
  split
  · exact bind_map_rel (isoCurveV_image f p u) fun c _ => Bezier.evaluate_image f c v
  · exact bind_map_rel (isoCurveU_image f p v) fun c _ => Bezier.evaluate_image f c u

end BezierPatch

namespace BSplinePatch

variable {K V W : Type} [Field K] [LinearOrder K] [IsStrictOrderedRing K] [FloorRing K]
  [AddCommGroup V] [Module K V] [AddCommGroup W] [Module K W]

/-- Image of a patch. -/
def image (f : V → W) (p : BSplinePatch K V) : BSplinePatch K W :=
  { grid := p.grid.map f, knotsU := p.knotsU, knotsV := p.knotsV, degU := p.degU, degV := p.degV,
    perU := p.perU, perV := p.perV, sU := p.sU, sV := p.sV,
    isoU := p.isoU.map (BSpline.image f), isoV := p.isoV.map (BSpline.image f) }

variable (f : V →ₗ[K] W) (p : BSplinePatch K V)

theorem getControlPoint_image (i j : ℕ) :
    (image f p).getControlPoint i j = f <$> p.getControlPoint i j := by
  unfold getControlPoint
  exact bind_map_same fun k _ => rd_map f _ _

theorem allIsoU_image :
    (image f p).allIsoU = (List.map (BSpline.image f)) <$> p.allIsoU := by
  unfold allIsoU
  refine bind_map_same fun m _ => bind_map_same fun n _ => ?_
  refine tab_image fun i _ => ?_
  exact bind_map_rel (tab_image fun j _ => getControlPoint_image f p j i) fun l _ => rfl

theorem allIsoV_image :
    (image f p).allIsoV = (List.map (BSpline.image f)) <$> p.allIsoV := by
  unfold allIsoV
  refine bind_map_same fun m _ => bind_map_same fun n _ => ?_
  refine tab_image fun i _ => ?_
  exact bind_map_rel (tab_image fun j _ => getControlPoint_image f p i j) fun l _ => rfl

theorem init_image : (image f p).init = image f <$> p.init := by
  unfold init
  rw [show (image f p).grid.length = p.grid.length by simp [image]]
  refine bind_map_same fun m _ => bind_map_same fun n _ => bind_map_same fun _ _ => ?_
  exact bind_map_rel (allIsoU_image f p) fun iu _ => bind_map_rel (allIsoV_image f p) fun iv _ => rfl

theorem isoCurveU_image (v : K) :
    (image f p).isoCurveU v = BSpline.image f <$> p.isoCurveU v := by
  unfold isoCurveU
  refine bind_map_same fun m _ => ?_
  refine bind_map_rel (φ := List.map f) (tab_image fun i _ => ?_) fun l _ => rfl
  exact bind_map_rel (rd_map _ _ _) fun c _ => BSpline.evaluate_map f c v

theorem isoCurveV_image (u : K) :
    (image f p).isoCurveV u = BSpline.image f <$> p.isoCurveV u := by
  unfold isoCurveV
  refine bind_map_same fun m _ => ?_
  refine bind_map_rel (φ := List.map f) (tab_image fun i _ => ?_) fun l _ => rfl
  exact bind_map_rel (rd_map _ _ _) fun c _ => BSpline.evaluate_map f c u

theorem evaluate_image (u v : K) : (image f p).evaluate u v = f <$> p.evaluate u v := by
  unfold evaluate
  rw [show (image f p).degU = p.degU from rfl, show (image f p).degV = p.degV from rfl]
  split
  · exact bind_map_rel (isoCurveV_image f p u) fun c _ => BSpline.evaluate_map f c v
  · exact bind_map_rel (isoCurveU_image f p v) fun c _ => BSpline.evaluate_map f c u

end BSplinePatch

namespace LeastSquares

variable {K : Type} [Field K] [LinearOrder K] [IsStrictOrderedRing K] [FloorRing K]

/-- A family of evaluators that commutes with linear maps. -/
def Natural (ev : ∀ (V : Type) [AddCommGroup V] [Module K V], List V → Outcome V) : Prop :=
  ∀ (V W : Type) [AddCommGroup V] [Module K V] [AddCommGroup W] [Module K W] (f : V →ₗ[K] W)
    (l : List V), ev W (l.map f) = f <$> ev V l

/-- The `j`-th unit vector. -/
def unit (K : Type) [Field K] (n j : ℕ) : List K := arr n (fun i => if i = j then 1 else 0)

variable {V : Type} [AddCommGroup V] [Module K V]

/-- A natural evaluator is a linear combination of the control points with coefficients that are
its values at the unit vectors. -/
theorem natural_row {ev : ∀ (V : Type) [AddCommGroup V] [Module K V], List V → Outcome V}
    (hev : Natural ev) {n : ℕ} {P : List V} {v : V} (hP : P.length = n) (h : ev V P = ok v) :
    ∃ w : ℕ → K, (∀ j < n, ev K (unit K n j) = ok (w j)) ∧
      ∀ (W : Type) [AddCommGroup W] [Module K W] (Q : List W), Q.length = n →
        ev W Q = ok (∑ j ∈ Finset.range n, w j • Q.getD j 0) := by
  classical
  let B : List (Fin n → K) := List.ofFn fun j : Fin n => Pi.single j 1
  have key : ∀ (W : Type) [AddCommGroup W] [Module K W] (Q : List W), Q.length = n →
      ∃ f : (Fin n → K) →ₗ[K] W, (∀ x, f x = ∑ j : Fin n, x j • Q.getD j 0) ∧ Q = B.map f := by
    intro W _ _ Q hQ
    let f : (Fin n → K) →ₗ[K] W :=
      { toFun := fun x => ∑ j : Fin n, x j • Q.getD j 0
        map_add' := fun x y => by simp [add_smul, Finset.sum_add_distrib]
        map_smul' := fun c x => by simp [Finset.smul_sum, smul_smul] }
    refine ⟨f, fun _ => rfl, ?_⟩
    apply List.ext_getElem
    · simp [B, hQ]
    · intro i h1 h2
      have hi : i < n := by omega
      rw [List.getElem_map]
      simp only [B, List.getElem_ofFn]
      change Q[i] = ∑ j : Fin n, (Pi.single (⟨i, hi⟩ : Fin n) (1 : K) : Fin n → K) j • Q.getD j 0
      rw [Finset.sum_eq_single (⟨i, hi⟩ : Fin n)]
      · simp [List.getD, h1]
      · intro j _ hj
        simp [hj]
      · simp
  obtain ⟨f, _, hf2⟩ := key V P hP
  rw [hf2, hev] at h
  obtain ⟨x, hx, _⟩ := map_eq_ok.1 h
  refine ⟨fun j => if hj : j < n then x ⟨j, hj⟩ else 0, fun j hj => ?_, fun W _ _ Q hQ => ?_⟩
  · obtain ⟨g, hg1, hg2⟩ := key K (unit K n j) (by simp [unit])
    simp only [dif_pos hj]
    rw [hg2, hev, hx, map_ok, hg1]
    congr 1
    rw [Finset.sum_eq_single (⟨j, hj⟩ : Fin n)]
    · rw [unit, arr_getD _ _ _ _ hj]; simp
    · intro k _ hk
      rw [unit, arr_getD _ _ _ _ k.2, if_neg (fun h => hk (Fin.ext h)), smul_zero]
    · simp
  · obtain ⟨g, hg1, hg2⟩ := key W Q hQ
    conv_lhs => rw [hg2]
    rw [hev, hx, map_ok, hg1, Finset.sum_range]
    congr 1
    refine Finset.sum_congr rfl fun j _ => ?_
    simp only [dif_pos j.2]

/-! ### The matrix -/

variable {T : Type}

/-- State before processing column `idx k` for the columns processed so far. -/
def mat (m n : ℕ) (B : ℕ → ℕ → K) (S : ℕ → Prop) [DecidablePred S] : List K × List (List K) :=
  (List.replicate n 0, arr m fun i => arr n fun j => if S j then B i j else 0)

theorem column_eq {ev : List K → T → Outcome K} {params : List T} {n : ℕ} {B : ℕ → ℕ → K} {j : ℕ}
    (hj : j < n) (hB : ∀ i (hi : i < params.length), ev (unit K n j) params[i] = ok (B i j))
    (S S' : ℕ → Prop) [DecidablePred S] [DecidablePred S'] (hS : ∀ k, S' k ↔ S k ∨ k = j) :
    column ev params j (mat params.length n B S) = ok (mat params.length n B S') := by
  have h0 : List.replicate n (0 : K) = arr n (fun _ => 0) := by
    apply eq_arr_of <;> simp
  have h1 : wr (List.replicate n (0 : K)) j 1 = ok (unit K n j) := by
    rw [h0]
    exact wr_arr _ hj (fun i _ => rfl)
  have h2 : wr (unit K n j) j 0 = ok (List.replicate n (0 : K)) := by
    rw [h0, unit]
    refine wr_arr _ hj (fun i _ => ?_)
    split <;> rfl
  unfold column mat
  simp only
  rw [h1, ok_bind]
  have := loop_eq (fun r => arr params.length fun i => arr n fun k =>
      if (if i < r then S' k else S k) then B i k else 0) params.length
    (fun i M => do
      let t ← rd params i
      let x ← ev (unit K n j) t
      let row ← rd M i
      let row ← wr row j x
      wr M i row) (fun i hi => by
      rw [rd_of_lt hi, ok_bind, hB i hi, ok_bind, rd_arr hi, ok_bind]
      rw [wr_arr (fun k => if S' k then B i k else 0) hj ?_, ok_bind]
      · refine wr_arr _ hi (fun r hr => ?_)
        by_cases e : r = i
        · subst e
          rw [if_pos rfl]
          refine arr_congr fun k _ => ?_
          simp
        · rw [if_neg e]
          refine arr_congr fun k _ => ?_
          have : r < i + 1 ↔ r < i := by omega
          simp [this]
      · intro k _
        by_cases e : k = j
        · subst e
          have : S' k := (hS k).2 (Or.inr rfl)
          simp [this]
        · have : S' k ↔ S k := by rw [hS]; simp [e]
          simp [this, e])
  simp only [Nat.not_lt_zero, if_false] at this
  rw [this, ok_bind, h2, ok_bind, pure_eq]
  congr 2
  refine arr_congr fun i hi => arr_congr fun k _ => ?_
  simp [hi]

theorem mat_zero (m n : ℕ) (B : ℕ → ℕ → K) :
    (List.replicate n (0 : K), List.replicate m (List.replicate n (0 : K)))
      = mat m n B (fun _ => False) := by
  unfold mat
  congr 1
  apply eq_arr_of
  · simp
  · intro i hi
    rw [List.getElem_replicate]
    apply eq_arr_of <;> simp

theorem columns_eq {ev : List K → T → Outcome K} {params : List T} {n : ℕ} {B : ℕ → ℕ → K}
    (hB : ∀ j < n, ∀ i (hi : i < params.length), ev (unit K n j) params[i] = ok (B i j)) :
    loop n (column ev params)
      (List.replicate n 0, List.replicate params.length (List.replicate n 0))
      = ok (List.replicate n 0, arr params.length fun i => arr n fun j => B i j) := by
  rw [mat_zero _ _ B]
  have := loop_eq (fun k => mat params.length n B (fun j => j < k)) n (column ev params)
    (fun k hk => column_eq hk (hB k hk) _ _ (fun j => by omega))
  have h0 : mat params.length n B (fun j => j < 0) = mat params.length n B (fun _ => False) := by
    simp [mat]
  rw [h0] at this
  rw [this]
  congr 1
  unfold mat
  congr 1
  exact arr_congr fun i _ => arr_congr fun j hj => by simp [hj]

theorem columns2_eq {ev : List K → T → Outcome K} {params : List T} {a b : ℕ} {B : ℕ → ℕ → K}
    (hB : ∀ j < a * b, ∀ i (hi : i < params.length), ev (unit K (a * b) j) params[i] = ok (B i j)) :
    loop a (fun j st => loop b (fun k st => column ev params (j * b + k) st) st)
      (List.replicate (a * b) 0, List.replicate params.length (List.replicate (a * b) 0))
      = ok (List.replicate (a * b) 0, arr params.length fun i => arr (a * b) fun j => B i j) := by
  rw [mat_zero _ _ B]
  have := loop_eq (fun k => mat params.length (a * b) B (fun j => j < k * b)) a
    (fun j st => loop b (fun k st => column ev params (j * b + k) st) st)
    (fun r hr => by
      have h := loop_eq (fun k => mat params.length (a * b) B (fun j => j < r * b + k)) b
        (fun k st => column ev params (r * b + k) st)
        (fun k hk => by
          have hlt : r * b + k < a * b := by
            have : (r + 1) * b ≤ a * b := Nat.mul_le_mul_right b hr
            rw [Nat.add_mul] at this
            omega
          exact column_eq hlt (hB _ hlt) _ _ (fun j => by omega))
      simp only [Nat.add_zero] at h
      rw [h]
      congr 2
      funext j
      rw [Nat.add_mul, Nat.one_mul])
  have h0 : mat params.length (a * b) B (fun j => j < 0 * b)
      = mat params.length (a * b) B (fun _ => False) := by
    simp [mat]
  rw [h0] at this
  rw [this]
  congr 1
  unfold mat
  congr 1
  exact arr_congr fun i _ => arr_congr fun j hj => by simp [hj]

/-! ### Exact reproduction -/

open Spec

theorem residual_arr {m n : ℕ} (B : ℕ → ℕ → K) (X Y : List V) {i : ℕ} (hi : i < m) :
    residual n (arr m fun i => arr n fun j => B i j) X Y i
      = (∑ j ∈ Finset.range n, B i j • X.getD j 0) - Y.getD i 0 := by
  unfold residual
  congr 1
  refine Finset.sum_congr rfl fun j hj => ?_
  rw [arr_getD _ _ _ _ hi, arr_getD _ _ _ _ (Finset.mem_range.1 hj)]

theorem exact {m n : ℕ} {M : List (List K)} {X Q Y : List V} (h : IsLeastSquares m n M X Y)
    (hQ : Q.length = n) (hz : ∀ i < m, residual n M Q Y i = 0) :
    ∀ i < m, residual n M X Y i = 0 := by
  intro i hi
  refine (Module.forall_dual_apply_eq_zero_iff K _).1 fun φ => ?_
  have h1 := h.2 Q hQ φ
  have h2 : ∑ i ∈ Finset.range m, φ (residual n M Q Y i) ^ 2 = 0 :=
    Finset.sum_eq_zero fun i hi => by rw [hz i (Finset.mem_range.1 hi)]; simp
  rw [h2] at h1
  have h3 := (Finset.sum_eq_zero_iff_of_nonneg (fun i _ => sq_nonneg (φ (residual n M X Y i)))).1
    (le_antisymm h1 (Finset.sum_nonneg fun i _ => sq_nonneg _)) i (Finset.mem_range.2 hi)
  exact pow_eq_zero_iff (two_ne_zero) |>.1 h3

/-! ### All parameters at once -/

/-- An evaluator with a parameter, for points of every space. -/
abbrev Ev (K T : Type) [Field K] : Type 1 :=
  ∀ (V : Type) [AddCommGroup V] [Module K V], List V → T → Outcome V

theorem basis {ev : Ev K T} (hnat : ∀ t, Natural (K := K) (fun V [AddCommGroup V] [Module K V] l => ev V l t))
    {n : ℕ} {params : List T} {P : List V} (hP : P.length = n)
    (hok : ∀ t ∈ params, ∃ v, ev V P t = ok v) :
    ∃ B : ℕ → ℕ → K,
      (∀ j < n, ∀ i (hi : i < params.length), ev K (unit K n j) params[i] = ok (B i j)) ∧
      ∀ (W : Type) [AddCommGroup W] [Module K W] (Q : List W), Q.length = n →
        ∀ i (hi : i < params.length),
          ev W Q params[i] = ok (∑ j ∈ Finset.range n, B i j • Q.getD j 0) := by
  have h : ∀ i : ℕ, ∃ w : ℕ → K, ∀ (hi : i < params.length),
      (∀ j < n, ev K (unit K n j) params[i] = ok (w j)) ∧
      ∀ (W : Type) [AddCommGroup W] [Module K W] (Q : List W), Q.length = n →
        ev W Q params[i] = ok (∑ j ∈ Finset.range n, w j • Q.getD j 0) := by
    intro i
    by_cases hi : i < params.length
    · obtain ⟨v, hv⟩ := hok params[i] (List.getElem_mem hi)
      obtain ⟨w, h1, h2⟩ := natural_row (hnat params[i]) hP hv
      exact ⟨w, fun _ => ⟨h1, h2⟩⟩
    · exact ⟨fun _ => 0, fun h => absurd h hi⟩
  choose B hB using h
  exact ⟨B, fun j hj i hi => (hB i hi).1 j hj, fun W _ _ Q hQ i hi => (hB i hi).2 W Q hQ⟩

theorem getD_zipWith_add {n : ℕ} {P Q : List V} (hP : P.length = n) (hQ : Q.length = n) {j : ℕ}
    (hj : j < n) : (List.zipWith (· + ·) P Q).getD j 0 = P.getD j 0 + Q.getD j 0 := by
  simp only [List.getD]
  rw [List.getElem?_zipWith, List.getElem?_eq_getElem (by omega), List.getElem?_eq_getElem (by omega)]
  rfl

theorem natural_bezier (t : K) : Natural (K := K)
    (fun V [AddCommGroup V] [Module K V] l => (Bezier.mk l false).evaluate t) := by
  intro V W _ _ _ _ f l
  exact Bezier.evaluate_image f (Bezier.mk l false) t

theorem natural_bspline (knots : List K) (per : Bool) (sdeg : Option ℕ) (t : K) : Natural (K := K)
    (fun V [AddCommGroup V] [Module K V] l => (BSpline.mk l knots per sdeg).evaluate t) := by
  intro V W _ _ _ _ f l
  exact BSpline.evaluate_map f (BSpline.mk l knots per sdeg) t

theorem natural_bezierPatch (degU degV : ℕ) (uv : K × K) : Natural (K := K)
    (fun V [AddCommGroup V] [Module K V] l => bezierPatchEv degU degV l uv) := by
  intro V W _ _ _ _ f l
  unfold bezierPatchEv
  have h : BezierPatch.ofGrid (degU : ℤ) (degV : ℤ) (l.map f)
      = BezierPatch.image f (BezierPatch.ofGrid (degU : ℤ) (degV : ℤ) l) := rfl
  simp only
  rw [h, BezierPatch.init_image]
  exact bind_map_same fun _ _ => BezierPatch.evaluate_image f _ _ _

theorem natural_bsplinePatch (sU sV : ℤ) (kU kV : List K) (uv : K × K) : Natural (K := K)
    (fun V [AddCommGroup V] [Module K V] l => bsplinePatchEv sU sV kU kV l uv) := by
  intro V W _ _ _ _ f l
  unfold bsplinePatchEv
  have h : bsplinePatch sU sV kU kV (l.map f)
      = BSplinePatch.image f (bsplinePatch sU sV kU kV l) := by
    simp [bsplinePatch, BSplinePatch.image]
  simp only
  rw [h, BSplinePatch.init_image]
  refine bind_map_rel rfl fun p _ => BSplinePatch.evaluate_image f p _ _

/-- The residual in terms of evaluation. -/
theorem residual_zero_iff {m n : ℕ} {B : ℕ → ℕ → K} {X Y : List V} {i : ℕ} (hi : i < m)
    (hY : Y.length = m) {x : Outcome V} (hx : x = ok (∑ j ∈ Finset.range n, B i j • X.getD j 0)) :
    residual n (arr m fun i => arr n fun j => B i j) X Y i = 0 ↔ x = rd Y i := by
  rw [residual_arr B X Y hi, sub_eq_zero, hx, rd_of_lt (by omega), ok.injEq]
  simp [List.getD, hY, hi]

end LeastSquares
end NS
