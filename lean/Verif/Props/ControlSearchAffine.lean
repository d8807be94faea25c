import Verif.Props.ControlSearchBezier
import Verif.Spec.Geom

/-!
# C76: the search on affine control nets
-/

set_option linter.unusedSectionVars false
set_option linter.unusedSimpArgs false

namespace NS.Props

open Outcome Spec ControlSearch BezierPatch Polynomial
open Bezier (natDegree_lin_pow)
open Geom (dot)

variable {K V : Type} [Field K] [LinearOrder K] [IsStrictOrderedRing K] [FloorRing K]
  [AddCommGroup V] [Module K V]

theorem umb_affine (A B : V) (m : ℕ) (f : K[X]) :
    umb (fun i => A + ((i : K) / (m : K)) • B) f
      = f.eval 1 • A + ((derivative f).eval 1 / (m : K)) • B := by
  induction f using Polynomial.induction_on' with
  | add f g hf hg =>
    rw [map_add, hf, hg, derivative_add, eval_add, eval_add]
    module
  | monomial k a =>
    rw [umb_monomial, derivative_monomial, eval_monomial, eval_monomial]
    simp only [one_pow, mul_one]
    rw [smul_add, smul_smul, mul_div_assoc]

theorem lin_eval_one (u : K) : (lin u).eval 1 = 1 := by simp [lin]

theorem lin_derivative (u : K) : derivative (lin u) = C u := by simp [lin]

theorem umb_affine_left (A B : V) {m : ℕ} (u : K) (i : ℕ) :
    umb (fun i => A + ((i : K) / (m : K)) • B) (lin u ^ i)
      = A + ((i : K) / (m : K)) • (u • B) := by
  rw [umb_affine, derivative_pow, lin_derivative]
  simp only [eval_pow, lin_eval_one, one_pow, eval_mul, eval_C, mul_one]
  rw [one_smul, smul_smul]
  congr 2
  rw [div_mul_eq_mul_div]

theorem umb_affine_right (A B : V) {m : ℕ} (hm : m ≠ 0) (u : K) {i : ℕ} (hi : i ≤ m) :
    umb (fun i => A + ((i : K) / (m : K)) • B) (lin u ^ (m - i) * X ^ i)
      = (A + u • B) + ((i : K) / (m : K)) • ((1 - u) • B) := by
  have h : (m : K) ≠ 0 := by exact_mod_cast hm
  rw [umb_affine, derivative_mul, derivative_pow, derivative_X_pow, lin_derivative]
  simp only [eval_add, eval_pow, lin_eval_one, one_pow, eval_mul, eval_C, mul_one, eval_X, one_mul]
  rw [one_smul, add_assoc, smul_smul, ← add_smul, Nat.cast_sub hi]
  congr 2
  field_simp
  ring

theorem natDegree_lin_pow_X (t : K) {n i : ℕ} (hi : i ≤ n) :
    (lin t ^ (n - i) * X ^ i).natDegree ≤ n := by
  have h1 : (lin t ^ (n - i)).natDegree ≤ n - i := natDegree_lin_pow t (n - i)
  have h2 : ((X : K[X]) ^ i).natDegree ≤ i := natDegree_X_pow_le i
  have := natDegree_mul_le (p := lin t ^ (n - i)) (q := (X : K[X]) ^ i)
  omega

/-- The control points are `o + (i/m) e₁ + (j/n) e₂`. -/
def AffineNet (q : BezierPatch V) (m n : ℕ) (o e₁ e₂ : V) (_ : K) : Prop :=
  ∀ i ≤ m, ∀ j ≤ n, q.pts n i j = o + ((i : K) / (m : K)) • e₁ + ((j : K) / (n : K)) • e₂

theorem affine_evaluate {q : BezierPatch V} {m n : ℕ} (hw : q.WellFormed m n)
    (hpu : q.perU = false) (hpv : q.perV = false) (hm : m ≠ 0) (hn : n ≠ 0) {o e₁ e₂ : V}
    (h : AffineNet q m n o e₁ e₂ (0 : K)) (s t : K) :
    q.evaluate s t = ok (o + s • e₁ + t • e₂) := by
  rw [← flat_eq hpu hpv, flat_evaluate hw, part_zero]
  congr 1
  have hm' : (m : K) ≠ 0 := by exact_mod_cast hm
  have hn' : (n : K) ≠ 0 := by exact_mod_cast hn
  rw [umb_congr _ (fun i => (o + t • e₂) + ((i : K) / (m : K)) • e₁) _ m
    (natDegree_lin_pow s m) (by
      intro i hi
      rw [umb_congr _ (fun j => (o + ((i : K) / (m : K)) • e₁) + ((j : K) / (n : K)) • e₂) _ n
        (natDegree_lin_pow t n) (fun j hj => h i hi j hj), umb_affine_left, smul_smul,
        div_mul_eq_mul_div, mul_div_cancel_left₀ t hn']
      abel), umb_affine_left, smul_smul, div_mul_eq_mul_div, mul_div_cancel_left₀ s hm']
  abel

theorem pts_ofGrid (a b : ℤ) {m n : ℕ} (Q : ℕ → ℕ → V) {i j : ℕ} (hi : i ≤ m) (hj : j ≤ n) :
    (ofGrid a b (gridOf (m + 1) (n + 1) Q)).pts n i j = Q i j :=
  pts_gridOf (m := m) Q _ rfl (Nat.lt_succ_of_le hi) (Nat.lt_succ_of_le hj)

/-- A piece with an affine net. -/
def AffinePiece (p : BezierPatch V) (k : K) (q : BezierPatch V) : Prop :=
  PieceOk p q ∧ ∃ o e₁ e₂ : V, AffineNet q p.degU.toNat p.degV.toNat o e₁ e₂ k

theorem affine_split_u {eps : K} (he : 0 ≤ eps) {p q : BezierPatch V} (hm : p.degU.toNat ≠ 0)
    (h : AffinePiece p (0 : K) q) {x : K} (x0 : 0 < x) (x1 : x < 1) :
    ∃ A B, q.splitU eps x = ok [A, B] ∧ AffinePiece p (0 : K) A ∧ AffinePiece p (0 : K) B ∧
      ∀ s t : K, A.evaluate s t = q.evaluate (x * s) t ∧
        B.evaluate s t = q.evaluate (x + (1 - x) * s) t := by
  obtain ⟨gq, o, e₁, e₂, ha⟩ := h
  obtain ⟨A, B, e, oA, oB, H⟩ := C30_split_u_partial he gq.1 gq.2.2.2.1 x0 x1
  rw [flat_piece gq] at H
  have hw := wf_of_init gq.1
  rw [gq.2.1, gq.2.2.1] at hw
  have e' := hw.splitU he x0 x1
  rw [e, ok.injEq, List.cons.injEq, List.cons.injEq] at e'
  obtain ⟨rfl, rfl, -⟩ := e'
  refine ⟨_, _, e, ⟨pieceOk_trans gq oA, o, x • e₁, e₂, ?_⟩,
    ⟨pieceOk_trans gq oB, o + x • e₁, (1 - x) • e₁, e₂, ?_⟩, H⟩
  · intro i hi j hj
    rw [pts_ofGrid _ _ _ hi hj]
    rw [umb_congr _ (fun i => (o + ((j : K) / (p.degV.toNat : K)) • e₂)
      + ((i : K) / (p.degU.toNat : K)) • e₁) _ p.degU.toNat
      ((natDegree_lin_pow x i).trans hi) (fun i hi => by rw [ha i hi j hj]; abel),
      umb_affine_left]
    abel
  · intro i hi j hj
    rw [pts_ofGrid _ _ _ hi hj]
    rw [umb_congr _ (fun i => (o + ((j : K) / (p.degV.toNat : K)) • e₂)
      + ((i : K) / (p.degU.toNat : K)) • e₁) _ p.degU.toNat
      (natDegree_lin_pow_X x hi) (fun i hi => by rw [ha i hi j hj]; abel),
      umb_affine_right _ _ hm _ hi]
    abel

theorem affine_split_v {eps : K} (he : 0 ≤ eps) {p q : BezierPatch V} (hn : p.degV.toNat ≠ 0)
    (h : AffinePiece p (0 : K) q) {x : K} (x0 : 0 < x) (x1 : x < 1) :
    ∃ A B, q.splitV eps x = ok [A, B] ∧ AffinePiece p (0 : K) A ∧ AffinePiece p (0 : K) B ∧
      ∀ s t : K, A.evaluate s t = q.evaluate s (x * t) ∧
        B.evaluate s t = q.evaluate s (x + (1 - x) * t) := by
  obtain ⟨gq, o, e₁, e₂, ha⟩ := h
  obtain ⟨A, B, e, oA, oB, H⟩ := C30_split_v_partial he gq.1 gq.2.2.2.1 x0 x1
  rw [flat_piece gq] at H
  have hw := wf_of_init gq.1
  rw [gq.2.1, gq.2.2.1] at hw
  have e' := hw.splitV he x0 x1
  rw [e, ok.injEq, List.cons.injEq, List.cons.injEq] at e'
  obtain ⟨rfl, rfl, -⟩ := e'
  refine ⟨_, _, e, ⟨pieceOk_trans gq oA, o, e₁, x • e₂, ?_⟩,
    ⟨pieceOk_trans gq oB, o + x • e₂, e₁, (1 - x) • e₂, ?_⟩, H⟩
  · intro i hi j hj
    rw [pts_ofGrid _ _ _ hi hj]
    rw [umb_congr _ (fun j => (o + ((i : K) / (p.degU.toNat : K)) • e₁)
      + ((j : K) / (p.degV.toNat : K)) • e₂) _ p.degV.toNat
      ((natDegree_lin_pow x j).trans hj) (fun j hj => ha i hi j hj),
      umb_affine_left]
  · intro i hi j hj
    rw [pts_ofGrid _ _ _ hi hj]
    rw [umb_congr _ (fun j => (o + ((i : K) / (p.degU.toNat : K)) • e₁)
      + ((j : K) / (p.degV.toNat : K)) • e₂) _ p.degV.toNat
      (natDegree_lin_pow_X x hj) (fun j hj => ha i hi j hj),
      umb_affine_right _ _ hn _ hj]
    abel

/-- `subpatch` of an affine net is the affine net of the range it covers. -/
theorem affine_subpatch {eps : K} (he : 0 ≤ eps) {p : BezierPatch V} (h : p.init = ok ())
    (hs : Static p) (hpu : p.perU = false) (hpv : p.perV = false) (hm : p.degU.toNat ≠ 0)
    (hn : p.degV.toNat ≠ 0) {o e₁ e₂ : V}
    (hnet : AffineNet p p.degU.toNat p.degV.toNat o e₁ e₂ (0 : K)) {a b c d : K}
    (a0 : 0 ≤ a) (a1 : a < 1) (ab : a ≤ b) (b0 : 0 < b) (b1 : b ≤ 1)
    (c0 : 0 ≤ c) (c1 : c < 1) (cd : c ≤ d) (d0 : 0 < d) (d1 : d ≤ 1) :
    ∃ S, p.subpatch eps a b c d = ok S ∧ PieceOk p S ∧
      AffineNet S p.degU.toNat p.degV.toNat (o + a • e₁ + c • e₂) ((actualEnd a b - a) • e₁)
        ((actualEnd c d - c) • e₂) (0 : K) := by
  obtain ⟨S, e, ⟨g, o', f₁, f₂, net⟩, ev⟩ := bezier_subpatch_good he (Good := AffinePiece p (0 : K))
    (fun q hq x x0 x1 => affine_split_u he hm hq x0 x1)
    (fun q hq x x0 x1 => affine_split_v he hn hq x0 x1)
    (p := p) ⟨pieceOk_self h hs hpu hpv, o, e₁, e₂, hnet⟩ a0 a1 ab b0 b1 c0 c1 cd d0 d1
  have hwS := wf_of_init g.1
  rw [g.2.1, g.2.2.1] at hwS
  have hE := affine_evaluate hwS g.2.2.2.2.1 g.2.2.2.2.2 hm hn net
  have hE' := affine_evaluate (wf_of_init h) hpu hpv hm hn hnet
  have key : ∀ s t : K, o' + s • f₁ + t • f₂ = o + (a + (actualEnd a b - a) * s) • e₁
      + (c + (actualEnd c d - c) * t) • e₂ := by
    intro s t
    have := ev s t
    rw [hE, hE', ok.injEq] at this
    exact this
  have k0 : o' = o + a • e₁ + c • e₂ := by simpa using key 0 0
  have k1 : f₁ = (actualEnd a b - a) • e₁ := by
    have := key 1 0
    rw [k0] at this
    have h2 : f₁ = (o + (a + (actualEnd a b - a) * 1) • e₁ + (c + (actualEnd c d - c) * 0) • e₂)
      - (o + a • e₁ + c • e₂) := by rw [← this]; module
    rw [h2]; module
  have k2 : f₂ = (actualEnd c d - c) • e₂ := by
    have := key 0 1
    rw [k0] at this
    have h2 : f₂ = (o + (a + (actualEnd a b - a) * 0) • e₁ + (c + (actualEnd c d - c) * 1) • e₂)
      - (o + a • e₁ + c • e₂) := by rw [← this]; module
    rw [h2]; module
  subst k0 k1 k2
  exact ⟨S, e, g, net⟩

variable [Geom K V] [LawfulGeom K V]

/-- The closest point of a regular grid is the closest in each direction. -/
theorem closest_affine {big : K} {q : BezierPatch V} (h : q.init = ok ()) {m n : ℕ}
    (hdm : q.degU.toNat = m) (hdn : q.degV.toNat = n) {o e₁ e₂ w : V}
    (net : AffineNet q m n o e₁ e₂ (0 : K)) (h12 : (dot e₁ e₂ : K) = 0)
    (h1w : (dot e₁ w : K) = 0) (h2w : (dot e₂ w : K) = 0) (h1 : (0 : K) < dot e₁ e₁)
    (h2 : (0 : K) < dot e₂ e₂) (hbig : dot e₁ e₁ + dot e₂ e₂ + dot w w < big) {u v : K}
    (hu : 0 ≤ u ∧ u ≤ 1) (hv : 0 ≤ v ∧ v ≤ 1) :
    ∃ i j, q.findClosest big (sqNorm : V → K) (o + u • e₁ + v • e₂ + w) = ok (i, j) ∧ i ≤ m ∧ j ≤ n ∧
      (∀ a ≤ m, |u - (i : K) / (m : K)| ≤ |u - (a : K) / (m : K)|) ∧
      (∀ b ≤ n, |v - (j : K) / (n : K)| ≤ |v - (b : K) / (n : K)|) := by
  have hw := wf_of_init h
  rw [hdm, hdn] at hw
  have dist : ∀ i ≤ m, ∀ j ≤ n, (sqNorm (o + u • e₁ + v • e₂ + w - q.pts n i j) : K)
      = (u - (i : K) / m) ^ 2 * dot e₁ e₁ + (v - (j : K) / n) ^ 2 * dot e₂ e₂ + dot w w := by
    intro i hi j hj
    rw [net i hi j hj]
    have : o + u • e₁ + v • e₂ + w - (o + ((i : K) / m) • e₁ + ((j : K) / n) • e₂)
        = (u - (i : K) / m) • e₁ + (v - (j : K) / n) • e₂ + w := by module
    rw [this]
    have h21 : (dot e₂ e₁ : K) = 0 := by rw [LawfulGeom.dot_comm]; exact h12
    have hw1 : (dot w e₁ : K) = 0 := by rw [LawfulGeom.dot_comm]; exact h1w
    have hw2 : (dot w e₂ : K) = 0 := by rw [LawfulGeom.dot_comm]; exact h2w
    simp only [sqNorm, LawfulGeom.dot_add, dot_add_right, LawfulGeom.dot_smul, dot_smul_right, h12,
      h1w, h2w, h21, hw1, hw2]
    ring
  obtain ⟨i, j, e, H⟩ := PatchBase.findClosest_spec big (sqNorm : V → K)
    (fun i hi j hj => hw.getControlPoint hi hj) (o + u • e₁ + v • e₂ + w)
  have e' : q.findClosest big (sqNorm : V → K) (o + u • e₁ + v • e₂ + w) = ok (i, j) := by
    unfold findClosest
    rw [hw.numU, ok_bind, hw.numV, ok_bind, e]
  rcases H with ⟨hi, hj, -, H⟩ | ⟨rfl, rfl, H⟩
  · refine ⟨i, j, e', by omega, by omega, fun a ha => ?_, fun b hb => ?_⟩
    · have := H a (by omega) j hj
      rw [dist i (by omega) j (by omega), dist a ha j (by omega)] at this
      rw [← sq_le_sq]
      by_contra hc
      nlinarith [mul_lt_mul_of_pos_right (not_le.1 hc) h1]
    · have := H i hi b (by omega)
      rw [dist i (by omega) j (by omega), dist i (by omega) b hb] at this
      rw [← sq_le_sq]
      by_contra hc
      nlinarith [mul_lt_mul_of_pos_right (not_le.1 hc) h2]
  · exfalso
    have := H 0 (by omega) 0 (by omega)
    rw [dist 0 (by omega) 0 (by omega)] at this
    simp only [Nat.cast_zero, zero_div, sub_zero] at this
    have s1 : u ^ 2 ≤ 1 := by nlinarith [hu.1, hu.2]
    have s2 : v ^ 2 ≤ 1 := by nlinarith [hv.1, hv.2]
    nlinarith [mul_le_mul_of_nonneg_right s1 h1.le, mul_le_mul_of_nonneg_right s2 h2.le]

theorem third_near {u : K} (hu : 0 ≤ u ∧ u ≤ 1) {i : ℕ}
    (H : ∀ a : ℕ, a ≤ 3 → |u - (i : K) / ((3 : ℕ) : K)| ≤ |u - (a : K) / ((3 : ℕ) : K)|) :
    |u - (i : K) / 3| ≤ 1 / 6 := by
  obtain ⟨h0, h1⟩ := hu
  have c : ∀ a : ℕ, a ≤ 3 → |u - (a : K) / 3| ≤ 1 / 6 → |u - (i : K) / 3| ≤ 1 / 6 := by
    intro a ha h
    have := H a ha
    push_cast at this
    exact this.trans h
  rcases le_total u (1 / 6) with h | h
  · exact c 0 (by omega) (by rw [abs_le]; push_cast; constructor <;> linarith)
  rcases le_total u (1 / 2) with h' | h'
  · exact c 1 (by omega) (by rw [abs_le]; push_cast; constructor <;> linarith)
  rcases le_total u (5 / 6) with h'' | h''
  · exact c 2 (by omega) (by rw [abs_le]; push_cast; constructor <;> linarith)
  · exact c 3 (by omega) (by rw [abs_le]; push_cast; constructor <;> linarith)

theorem next_third {u : K} (hu : 0 ≤ u ∧ u ≤ 1) {i : ℕ} (hi : i ≤ 3) (h : |u - (i : K) / 3| ≤ 1 / 6)
    {L R : K}
    (hL : L = min (max ((((if i > 0 then i - 1 else i) : ℕ) : K) / ((3 : ℕ) : K)) 0) 1)
    (hR : R = min (max ((((if i + 1 < 3 + 1 then i + 1 else i) : ℕ) : K) / ((3 : ℕ) : K)) 0) 1) :
    0 ≤ L ∧ R ≤ 1 ∧ L < R ∧ R - L ≤ 2 / 3 ∧ (L = 0 ∨ R = 1) ∧ L ≤ u ∧ u ≤ R := by
  obtain ⟨h0, h1⟩ := hu
  rw [abs_le] at h
  obtain ⟨h2, h3⟩ := h
  interval_cases i <;> norm_num at hL hR h2 h3 <;> subst hL hR
  · exact ⟨by norm_num, by norm_num, by norm_num, by norm_num, Or.inl rfl, by linarith, by linarith⟩
  · exact ⟨by norm_num, by norm_num, by norm_num, by norm_num, Or.inl rfl, by linarith, by linarith⟩
  · exact ⟨by norm_num, by norm_num, by norm_num, by norm_num, Or.inr rfl, by linarith, by linarith⟩
  · exact ⟨by norm_num, by norm_num, by norm_num, by norm_num, Or.inr rfl, by linarith, by linarith⟩

theorem actualEnd_touch {a b : K} (h : a = 0 ∨ b = 1) : actualEnd a b = b := by
  unfold actualEnd
  rcases h with rfl | rfl
  · split
    · exact Eq.symm (by assumption)
    · ring
  · simp

/-- A trimmed range the search handles exactly: it is not a point and touches an end. -/
def Touching (lo hi : K) : Prop :=
  max lo 0 < min hi 1 ∧ (max lo 0 = 0 ∨ min hi 1 = 1)

theorem unit_of {a b u : K} (ab : a < b) (hu : a ≤ u ∧ u ≤ b) :
    0 ≤ (u - a) / (b - a) ∧ (u - a) / (b - a) ≤ 1 := by
  have : 0 < b - a := sub_pos.2 ab
  constructor
  · exact div_nonneg (by linarith [hu.1]) this.le
  · rw [div_le_one this]; linarith [hu.2]

/-- A query by its coordinates in an orthogonal frame. -/
structure Coords (big : K) (o e₁ e₂ w x : V) (u v : K) : Prop where
  h12 : (dot e₁ e₂ : K) = 0
  h1w : (dot e₁ w : K) = 0
  h2w : (dot e₂ w : K) = 0
  h1 : (0 : K) < dot e₁ e₁
  h2 : (0 : K) < dot e₂ e₂
  hbig : dot e₁ e₁ + dot e₂ e₂ + dot w w < big
  hx : x = o + u • e₁ + v • e₂ + w

theorem Coords.sub {big : K} {o e₁ e₂ w x : V} {u v : K} (H : Coords big o e₁ e₂ w x u v)
    {a b c d : K} (a0 : 0 ≤ a) (ab : a < b) (b1 : b ≤ 1) (c0 : 0 ≤ c) (cd : c < d) (d1 : d ≤ 1) :
    Coords big (o + a • e₁ + c • e₂) ((b - a) • e₁) ((d - c) • e₂) w x ((u - a) / (b - a))
      ((v - c) / (d - c)) := by
  have p1 : 0 < b - a := sub_pos.2 ab
  have p2 : 0 < d - c := sub_pos.2 cd
  have q1 : (b - a) * (b - a) ≤ 1 := by nlinarith
  have q2 : (d - c) * (d - c) ≤ 1 := by nlinarith
  refine ⟨?_, ?_, ?_, ?_, ?_, ?_, ?_⟩
  · rw [LawfulGeom.dot_smul, dot_smul_right, H.h12]; ring
  · rw [LawfulGeom.dot_smul, H.h1w]; ring
  · rw [LawfulGeom.dot_smul, H.h2w]; ring
  · rw [LawfulGeom.dot_smul, dot_smul_right]
    have := H.h1
    positivity
  · rw [LawfulGeom.dot_smul, dot_smul_right]
    have := H.h2
    positivity
  · rw [LawfulGeom.dot_smul, dot_smul_right, LawfulGeom.dot_smul, dot_smul_right, ← mul_assoc,
      ← mul_assoc]
    nlinarith [H.hbig, mul_le_mul_of_nonneg_right q1 H.h1.le,
      mul_le_mul_of_nonneg_right q2 H.h2.le]
  · rw [H.hx, smul_smul, smul_smul, div_mul_cancel₀ _ p1.ne', div_mul_cancel₀ _ p2.ne']
    module

theorem affine_round {eps big tol : K} (he : 0 ≤ eps) {p : BezierPatch V} (hdu : p.degU = 3)
    (hdv : p.degV = 3) (nu nv : ℕ) {w x : V} {s : BezierPatch V} {b : Box K}
    {o e₁ e₂ : V} {u v : K} (hs : PieceOk p s) (net : AffineNet s 3 3 o e₁ e₂ (0 : K))
    (hc : Coords big o e₁ e₂ w x u v) (tu : Touching b.minU b.maxU) (tv : Touching b.minV b.maxV)
    (hu : max b.minU 0 ≤ u ∧ u ≤ min b.maxU 1) (hv : max b.minV 0 ≤ v ∧ v ≤ min b.maxV 1) :
    ∃ S i j d, (∀ l, fallback (BezierPatch.ops eps big tol x nu nv) l s = ok none) ∧
      trim (BezierPatch.ops eps big tol x nu nv) s b
        = ok ⟨max b.minU 0, min b.maxU 1, max b.minV 0, min b.maxV 1⟩ ∧
      s.subpatch eps (max b.minU 0) (min b.maxU 1) (max b.minV 0) (min b.maxV 1) = ok S ∧
      S.findClosest big (sqNorm : V → K) x = ok (i, j) ∧
      S.preimage i j = ok ((i : K) / ((3 : ℕ) : K), (j : K) / ((3 : ℕ) : K)) ∧
      neighbours (BezierPatch.ops eps big tol x nu nv) s S i j = ok d ∧
      nextBox unitBox d
        = ⟨min (max ((((if i > 0 then i - 1 else i) : ℕ) : K) / ((3 : ℕ) : K)) 0) 1,
        min (max ((((if i + 1 < 3 + 1 then i + 1 else i) : ℕ) : K) / ((3 : ℕ) : K)) 0) 1,
        min (max ((((if j > 0 then j - 1 else j) : ℕ) : K) / ((3 : ℕ) : K)) 0) 1,
        min (max ((((if j + 1 < 3 + 1 then j + 1 else j) : ℕ) : K) / ((3 : ℕ) : K)) 0) 1⟩ ∧
      PieceOk p S ∧
      AffineNet S 3 3 (o + max b.minU 0 • e₁ + max b.minV 0 • e₂)
        ((min b.maxU 1 - max b.minU 0) • e₁) ((min b.maxV 1 - max b.minV 0) • e₂) (0 : K) ∧
      i ≤ 3 ∧ j ≤ 3 ∧
      |(u - max b.minU 0) / (min b.maxU 1 - max b.minU 0) - (i : K) / 3| ≤ 1 / 6 ∧
      |(v - max b.minV 0) / (min b.maxV 1 - max b.minV 0) - (j : K) / 3| ≤ 1 / 6 := by
  obtain ⟨tu, tu'⟩ := tu
  obtain ⟨tv, tv'⟩ := tv
  obtain ⟨si, sdu, sdv, sst, su, sv⟩ := hs
  have hm : s.degU.toNat = 3 := by rw [sdu, hdu]; rfl
  have hn : s.degV.toNat = 3 := by rw [sdv, hdv]; rfl
  have a0 : (0 : K) ≤ max b.minU 0 := le_max_right _ _
  have b1 : min b.maxU 1 ≤ 1 := min_le_right _ _
  have c0 : (0 : K) ≤ max b.minV 0 := le_max_right _ _
  have d1 : min b.maxV 1 ≤ 1 := min_le_right _ _
  obtain ⟨S, eS, P, netS⟩ := affine_subpatch he si sst su sv (by omega) (by omega)
    (o := o) (e₁ := e₁) (e₂ := e₂) (by rw [hm, hn]; exact net)
    a0 (tu.trans_le b1) tu.le (a0.trans_lt tu) b1
    c0 (tv.trans_le d1) tv.le (c0.trans_lt tv) d1
  rw [hm, hn, actualEnd_touch tu', actualEnd_touch tv'] at netS
  have PS := pieceOk_trans ⟨si, sdu, sdv, sst, su, sv⟩ P
  have hcS := hc.sub a0 tu b1 c0 tv d1
  have uu := unit_of tu hu
  have vv := unit_of tv hv
  obtain ⟨i, j, ec, hi, hj, ni, nj⟩ := closest_affine (big := big) P.1 (by rw [P.2.1, hm])
    (by rw [P.2.2.1, hn]) netS hcS.h12 hcS.h1w hcS.h2w hcS.h1 hcS.h2 hcS.hbig uu vv
  rw [← hcS.hx] at ec
  have hw := wf_of_init si
  have hwS := wf_of_init P.1
  rw [P.2.1, P.2.2.1] at hwS
  rw [hm, hn] at hw hwS
  obtain ⟨d, f1, f2, f3, f4⟩ := round_unit (o := BezierPatch.ops eps big tol x nu nv) (s := s)
    (r := S) (b := b) (i := i) (j := j) hw hwS rfl rfl rfl rfl rfl rfl (fun _ _ => rfl) (by omega)
    (by omega)
  exact ⟨S, i, j, d, fun l => fallback_of (by simp [BezierPatch.ops, su, sv]) hw.degreeU hw.degreeV
    hw.numU hw.numV (by omega) (by omega) (by omega) (by omega), f1, eS, ec, f2, f3, f4, PS, netS, hi,
    hj, third_near uu ni, third_near vv nj⟩

theorem remap_near {a b u x e : K} (ab : a < b) (h : |x - (u - a) / (b - a)| ≤ e) :
    |((b - a) * x + a) - u| ≤ (b - a) * e := by
  have p : 0 < b - a := sub_pos.2 ab
  have : ((b - a) * x + a) - u = (b - a) * (x - (u - a) / (b - a)) := by
    field_simp; ring
  rw [this, abs_mul, abs_of_pos p]
  exact mul_le_mul_of_nonneg_left h p.le

theorem third_clamp {i : ℕ} (hi : i ≤ 3) : min (max ((i : K) / ((3 : ℕ) : K)) 0) 1 = (i : K) / 3 := by
  interval_cases i <;> norm_num

theorem affine_search {eps big tol : K} (he : 0 ≤ eps) {p : BezierPatch V} (hdu : p.degU = 3)
    (hdv : p.degV = 3) (nu nv : ℕ) {w x : V} (level : ℕ) : ∀ {s : BezierPatch V} {b : Box K}
    {o e₁ e₂ : V} {u v : K}, PieceOk p s → AffineNet s 3 3 o e₁ e₂ (0 : K) →
    Coords big o e₁ e₂ w x u v → Touching b.minU b.maxU → Touching b.minV b.maxV →
    (max b.minU 0 ≤ u ∧ u ≤ min b.maxU 1) → (max b.minV 0 ≤ v ∧ v ≤ min b.maxV 1) →
    ∃ r, unitSearch (BezierPatch.ops eps big tol x nu nv) level s b = ok r ∧
      |r.1 - u| ≤ (min b.maxU 1 - max b.minU 0) * ((2 / 3) ^ level / 6) ∧
      |r.2 - v| ≤ (min b.maxV 1 - max b.minV 0) * ((2 / 3) ^ level / 6) := by
  induction level with
  | zero =>
    intro s b o e₁ e₂ u v hs net hc tu tv hu hv
    obtain ⟨S, i, j, d, hf, f1, f2, f3, f4, f5, f6, PS, netS, hi, hj, ni, nj⟩ :=
      affine_round (tol := tol) he hdu hdv nu nv hs net hc tu tv hu hv
    rw [unitSearch, hf, ok_bind]
    simp only
    rw [f1, ok_bind]
    simp only [BezierPatch.ops]
    rw [f2, ok_bind, f3, ok_bind]
    simp only
    rw [f4, ok_bind]
    refine ⟨_, rfl, ?_, ?_⟩
    · simp only [remap, clampBox, unitBox]
      rw [third_clamp hi]
      apply remap_near tu.1
      rw [abs_sub_comm]
      simpa using ni
    · simp only [remap, clampBox, unitBox]
      rw [third_clamp hj]
      apply remap_near tv.1
      rw [abs_sub_comm]
      simpa using nj
  | succ level ih =>
    intro s b o e₁ e₂ u v hs net hc tu tv hu hv
    obtain ⟨S, i, j, d, hf, f1, f2, f3, f4, f5, f6, PS, netS, hi, hj, ni, nj⟩ :=
      affine_round (tol := tol) he hdu hdv nu nv hs net hc tu tv hu hv
    have uu := unit_of tu.1 hu
    have vv := unit_of tv.1 hv
    have hcS := hc.sub (le_max_right _ _) tu.1 (min_le_right _ _) (le_max_right _ _) tv.1
      (min_le_right _ _)
    obtain ⟨l0, l1, l2, l3, l4, l5, l6⟩ := next_third uu hi ni rfl rfl
    obtain ⟨m0, m1, m2, m3, m4, m5, m6⟩ := next_third vv hj nj rfl rfl
    have bx : (nextBox unitBox d).minU = _ := congrArg Box.minU f6
    have bX : (nextBox unitBox d).maxU = _ := congrArg Box.maxU f6
    have bv : (nextBox unitBox d).minV = _ := congrArg Box.minV f6
    have bV : (nextBox unitBox d).maxV = _ := congrArg Box.maxV f6
    simp only at bx bX bv bV
    rw [← bx] at l0 l2 l3 l4 l5
    rw [← bX] at l1 l2 l3 l4 l6
    rw [← bv] at m0 m2 m3 m4 m5
    rw [← bV] at m1 m2 m3 m4 m6
    have A1 : max (nextBox unitBox d).minU 0 = (nextBox unitBox d).minU := max_eq_left l0
    have A2 : min (nextBox unitBox d).maxU 1 = (nextBox unitBox d).maxU := min_eq_left l1
    have A3 : max (nextBox unitBox d).minV 0 = (nextBox unitBox d).minV := max_eq_left m0
    have A4 : min (nextBox unitBox d).maxV 1 = (nextBox unitBox d).maxV := min_eq_left m1
    obtain ⟨r, er, r1, r2⟩ := ih (s := S) (b := nextBox unitBox d) PS netS hcS
      (by unfold Touching; rw [A1, A2]; exact ⟨l2, l4⟩)
      (by unfold Touching; rw [A3, A4]; exact ⟨m2, m4⟩)
      (by rw [A1, A2]; exact ⟨l5, l6⟩) (by rw [A3, A4]; exact ⟨m5, m6⟩)
    rw [A1, A2] at r1
    rw [A3, A4] at r2
    have pw : (0 : K) < (2 / 3) ^ level / 6 := by positivity
    have g1 := r1.trans (mul_le_mul_of_nonneg_right l3 pw.le)
    have g2 := r2.trans (mul_le_mul_of_nonneg_right m3 pw.le)
    have pe : (2 / 3 : K) * ((2 / 3) ^ level / 6) = (2 / 3) ^ (level + 1) / 6 := by ring
    rw [pe] at g1 g2
    rw [unitSearch, hf, ok_bind]
    simp only
    rw [f1, ok_bind]
    have f2' : (BezierPatch.ops eps big tol x nu nv).subpatch s
        ⟨max b.minU 0, min b.maxU 1, max b.minV 0, min b.maxV 1⟩ = ok S := f2
    have f3' : (BezierPatch.ops eps big tol x nu nv).closest S = ok (i, j) := f3
    rw [f2', ok_bind, f3', ok_bind, f5, ok_bind]
    unfold nextBox at er
    rw [er, ok_bind]
    exact ⟨_, rfl, remap_near tu.1 g1, remap_near tv.1 g2⟩

/-- C76: on a bicubic Bézier patch whose control points form a regular grid
`o + (i/3) e₁ + (j/3) e₂` with perpendicular sides, the search converges for every query: after
`level` rounds it is within `(2/3)^level / 6` of the box from the parameters of the closest point of
the plane, whenever these are in the box. The box may be all of the domain, or touch one of its ends
in each direction; for other boxes and higher degrees see `C76_interior_refuted`. -/
theorem C76_regular_bicubic_converges {eps big tol : K} (he : 0 ≤ eps) {p : BezierPatch V}
    (h : p.init = ok ()) (hs : Static p) (hpu : p.perU = false) (hpv : p.perV = false)
    (hdu : p.degU = 3) (hdv : p.degV = 3) {o e₁ e₂ w : V}
    (hg : ∀ i j : ℕ, i ≤ 3 → j ≤ 3 →
      p.getControlPoint i j = ok (o + ((i : K) / 3) • e₁ + ((j : K) / 3) • e₂))
    (h12 : (dot e₁ e₂ : K) = 0) (h1w : (dot e₁ w : K) = 0) (h2w : (dot e₂ w : K) = 0)
    (h1 : e₁ ≠ 0) (h2 : e₂ ≠ 0) (hbig : dot e₁ e₁ + dot e₂ e₂ + dot w w < big) {u v : K}
    (nu nv level : ℕ) {b : Box K} (hb : 0 ≤ b.minU ∧ b.maxU ≤ 1 ∧ 0 ≤ b.minV ∧ b.maxV ≤ 1)
    (hlt : b.minU < b.maxU ∧ b.minV < b.maxV) (hend : b.minU = 0 ∨ b.maxU = 1)
    (hend' : b.minV = 0 ∨ b.maxV = 1) (hu : b.minU ≤ u ∧ u ≤ b.maxU)
    (hv : b.minV ≤ v ∧ v ≤ b.maxV) :
    ∃ r, p.approxInverse eps big tol (o + u • e₁ + v • e₂ + w) nu nv level b = ok r ∧
      |r.1 - u| ≤ (b.maxU - b.minU) * ((2 / 3) ^ level / 6) ∧
      |r.2 - v| ≤ (b.maxV - b.minV) * ((2 / 3) ^ level / 6) := by
  have A1 : max b.minU 0 = b.minU := max_eq_left hb.1
  have A2 : min b.maxU 1 = b.maxU := min_eq_left hb.2.1
  have A3 : max b.minV 0 = b.minV := max_eq_left hb.2.2.1
  have A4 : min b.maxV 1 = b.maxV := min_eq_left hb.2.2.2
  have hw := wf_of_init h
  rw [hdu, hdv] at hw
  have := affine_search (big := big) (tol := tol) he hdu hdv nu nv (w := w)
    (x := o + u • e₁ + v • e₂ + w) level (s := p) (b := b) (o := o) (e₁ := e₁) (e₂ := e₂) (u := u)
    (v := v)
    (pieceOk_self h hs hpu hpv) (by
      intro i hi j hj
      have e := hg i j hi hj
      rw [hw.getControlPoint (Nat.lt_succ_of_le hi) (Nat.lt_succ_of_le hj), ok.injEq] at e
      push_cast
      exact e)
    ⟨h12, h1w, h2w, LawfulGeom.dot_self _ h1, LawfulGeom.dot_self _ h2, hbig, rfl⟩
    (by unfold Touching; rw [A1, A2]; exact ⟨hlt.1, hend⟩)
    (by unfold Touching; rw [A3, A4]; exact ⟨hlt.2, hend'⟩)
    (by rw [A1, A2]; exact hu) (by rw [A3, A4]; exact hv)
  rw [A1, A2, A3, A4] at this
  exact this

end NS.Props
