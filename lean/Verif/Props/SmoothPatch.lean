import Verif.Props.Smooth
import Verif.Props.NurbsPatch

/-!
# C93: smoothness of B-spline and NURBS patches
-/

set_option linter.unusedSectionVars false

namespace NS.Props

open Outcome Spec Finset NS.BSplinePatch

variable {V : Type} [NormedAddCommGroup V] [NormedSpace ℝ V]

/-- Interior knots of a direction occur at most `k` times. -/
def MultLe (u : List ℝ) (n d k : ℕ) : Prop :=
  ∀ τ, knot u d < τ → τ < knot u n → u.count τ ≤ k

/-- A single basis function is smooth. -/
theorem basis_contDiff {u : List ℝ} {deg s : ℤ} {n d k : ℕ} (h : Axis u deg s n d)
    (hf : knot u d < knot u (d + 1)) (hk : k ≤ d) (hm : MultLe u n d k) {i : ℕ} (hi : i < n) :
    ContDiffOn ℝ (d - k : ℕ) (basis (knot u) (knot u n) d i) (Set.Icc (knot u d) (knot u n)) := by
  let e : List ℝ := arr n fun j => if j = i then 1 else 0
  have he : e.length = n := by simp [e]
  have hwf := h.wf (V := ℝ) false (c := e) he
  have := spline_contDiff hwf hf hk (by unfold MultLe at hm; simpa only [he] using hm)
  simp only [he] at this
  refine this.congr fun t _ => ?_
  unfold bsplinePoint
  rw [he, sum_eq_single i]
  · rw [arr_getD _ _ _ _ hi, if_pos rfl, smul_eq_mul, mul_one]
  · intro j hj hne
    rw [arr_getD _ _ _ _ (by simpa using hj), if_neg hne, smul_zero]
  · intro h
    exact absurd (by simpa using hi) h

variable {m n du dv ku kv : ℕ}

/-- C93 for patches: with interior knots of multiplicity at most `ku` and `kv` the surface is
jointly differentiable as often as the less smooth of the two directions allows. -/
theorem C93_patch {p : BSplinePatch ℝ V} (h : Regular p m n du dv) (hku : ku ≤ du) (hkv : kv ≤ dv)
    (hmu : MultLe p.knotsU m du ku) (hmv : MultLe p.knotsV n dv kv) {f : ℝ × ℝ → V}
    (hf : ∀ u v, knot p.knotsU du ≤ u → u ≤ knot p.knotsU m → knot p.knotsV dv ≤ v →
      v ≤ knot p.knotsV n → p.evaluate u v = ok (f (u, v))) :
    ContDiffOn ℝ (min (du - ku) (dv - kv) : ℕ) f
      (Set.Icc (knot p.knotsU du) (knot p.knotsU m) ×ˢ
        Set.Icc (knot p.knotsV dv) (knot p.knotsV n)) := by
  have hs : ContDiffOn ℝ (min (du - ku) (dv - kv) : ℕ)
      (fun x : ℝ × ℝ => bsplineSurface du dv m n p.knotsU p.knotsV p.grid x.1 x.2)
      (Set.Icc (knot p.knotsU du) (knot p.knotsU m) ×ˢ
        Set.Icc (knot p.knotsV dv) (knot p.knotsV n)) := by
    unfold bsplineSurface
    refine ContDiffOn.sum fun i hi => ContDiffOn.sum fun j hj => ContDiffOn.smul ?_ contDiffOn_const
    have h1 := (basis_contDiff h.valid.u h.firstU hku hmu (by simpa using hi : i < m)).of_le
      (m := (min (du - ku) (dv - kv) : ℕ)) (by exact_mod_cast min_le_left _ _)
    have h2 := (basis_contDiff h.valid.v h.firstV hkv hmv (by simpa using hj : j < n)).of_le
      (m := (min (du - ku) (dv - kv) : ℕ)) (by exact_mod_cast min_le_right _ _)
    exact (h1.comp contDiffOn_fst fun x hx => hx.1).mul (h2.comp contDiffOn_snd fun x hx => hx.2)
  refine hs.congr fun x hx => ?_
  have h1 := hf x.1 x.2 hx.1.1 hx.1.2 hx.2.1 hx.2.2
  rw [C31_evaluate_domain h.valid h.init h.wideU h.wideV ⟨hx.1.1, hx.1.2, Or.inl h.firstU⟩
    ⟨hx.2.1, hx.2.2, Or.inl h.firstV⟩ (Or.inr h.perU) (Or.inr h.perV)] at h1
  exact (ok.inj h1).symm

/-- C93: the partial derivatives in `u`, knots included. -/
theorem C93_patch_u {p : BSplinePatch ℝ V} (h : Regular p m n du dv) (hku : ku + 1 ≤ du)
    (hmu : MultLe p.knotsU m du ku) {v : ℝ} (h3 : knot p.knotsV dv ≤ v) (h4 : v ≤ knot p.knotsV n)
    {f f' f'' : ℝ → V}
    (hf : ∀ s, knot p.knotsU du ≤ s → s ≤ knot p.knotsU m → p.evaluate s v = ok (f s))
    (hf' : ∀ s, knot p.knotsU du ≤ s → s ≤ knot p.knotsU m → p.derivU s v = ok (f' s))
    (hf'' : ∀ s, knot p.knotsU du ≤ s → s ≤ knot p.knotsU m → p.derivUU s v = ok (f'' s)) {t : ℝ}
    (h1 : knot p.knotsU du < t) (h2 : t < knot p.knotsU m) :
    HasDerivAt f (f' t) t ∧ (ku + 2 ≤ du → HasDerivAt f' (f'' t) t) := by
  have hD := C64_u_partial h h3 h4 f f' f'' hf hf' hf''
  have hC : ContDiffOn ℝ (du - ku : ℕ) f (Set.Icc (knot p.knotsU du) (knot p.knotsU m)) := by
    have hs : ContDiffOn ℝ (du - ku : ℕ)
        (fun s => bsplineSurface du dv m n p.knotsU p.knotsV p.grid s v)
        (Set.Icc (knot p.knotsU du) (knot p.knotsU m)) := by
      unfold bsplineSurface
      exact ContDiffOn.sum fun i hi => ContDiffOn.sum fun j hj => ContDiffOn.smul
        ((basis_contDiff h.valid.u h.firstU (by omega) hmu (by simpa using hi)).mul
          contDiffOn_const) contDiffOn_const
    refine hs.congr fun s hs => ?_
    have h5 := hf s hs.1 hs.2
    rw [C31_evaluate_domain h.valid h.init h.wideU h.wideV ⟨hs.1, hs.2, Or.inl h.firstU⟩
      ⟨h3, h4, Or.inl h.firstV⟩ (Or.inr h.perU) (Or.inr h.perV)] at h5
    exact (ok.inj h5).symm
  have := two_sided hC (fun s s1 s2 => (hD.1 s s1.le s2.le).1 s2)
    (fun s s1 s2 => (hD.2 s s1.le s2.le).1 s2) h1 h2
  exact ⟨this.1 (by omega), fun h6 => this.2 (by omega)⟩

/-- C93: the partial derivatives in `v`, knots included. -/
theorem C93_patch_v {p : BSplinePatch ℝ V} (h : Regular p m n du dv) (hkv : kv + 1 ≤ dv)
    (hmv : MultLe p.knotsV n dv kv) {u : ℝ} (h3 : knot p.knotsU du ≤ u) (h4 : u ≤ knot p.knotsU m)
    {f f' f'' : ℝ → V}
    (hf : ∀ s, knot p.knotsV dv ≤ s → s ≤ knot p.knotsV n → p.evaluate u s = ok (f s))
    (hf' : ∀ s, knot p.knotsV dv ≤ s → s ≤ knot p.knotsV n → p.derivV u s = ok (f' s))
    (hf'' : ∀ s, knot p.knotsV dv ≤ s → s ≤ knot p.knotsV n → p.derivVV u s = ok (f'' s)) {t : ℝ}
    (h1 : knot p.knotsV dv < t) (h2 : t < knot p.knotsV n) :
    HasDerivAt f (f' t) t ∧ (kv + 2 ≤ dv → HasDerivAt f' (f'' t) t) := by
  have hD := C64_v_partial h h3 h4 f f' f'' hf hf' hf''
  have hC : ContDiffOn ℝ (dv - kv : ℕ) f (Set.Icc (knot p.knotsV dv) (knot p.knotsV n)) := by
    have hs : ContDiffOn ℝ (dv - kv : ℕ)
        (fun s => bsplineSurface du dv m n p.knotsU p.knotsV p.grid u s)
        (Set.Icc (knot p.knotsV dv) (knot p.knotsV n)) := by
      unfold bsplineSurface
      exact ContDiffOn.sum fun i hi => ContDiffOn.sum fun j hj => ContDiffOn.smul
        (contDiffOn_const.mul
          (basis_contDiff h.valid.v h.firstV (by omega) hmv (by simpa using hj))) contDiffOn_const
    refine hs.congr fun s hs => ?_
    have h5 := hf s hs.1 hs.2
    rw [C31_evaluate_domain h.valid h.init h.wideU h.wideV ⟨h3, h4, Or.inl h.firstU⟩
      ⟨hs.1, hs.2, Or.inl h.firstV⟩ (Or.inr h.perU) (Or.inr h.perV)] at h5
    exact (ok.inj h5).symm
  have := two_sided hC (fun s s1 s2 => (hD.1 s s1.le s2.le).1 s2)
    (fun s s1 s2 => (hD.2 s s1.le s2.le).1 s2) h1 h2
  exact ⟨this.1 (by omega), fun h6 => this.2 (by omega)⟩

/-- C93 for NURBS patches with positive weights. -/
theorem C93_nurbs_patch {p : NURBSPatch ℝ V} (h : NValid p m n du dv) (hi : p.init = ok p)
    (pu : p.perU = false) (pv : p.perV = false)
    (hwu : WideOn p.knotsU m du) (hwv : WideOn p.knotsV n dv)
    (fu : knot p.knotsU du < knot p.knotsU (du + 1)) (fv : knot p.knotsV dv < knot p.knotsV (dv + 1))
    (hw : ∀ x ∈ p.weights, 0 < x) (hku : ku ≤ du) (hkv : kv ≤ dv)
    (hmu : MultLe p.knotsU m du ku) (hmv : MultLe p.knotsV n dv kv) {f : ℝ × ℝ → V}
    (hf : ∀ u v, knot p.knotsU du ≤ u → u ≤ knot p.knotsU m → knot p.knotsV dv ≤ v →
      v ≤ knot p.knotsV n → p.evaluate u v = ok (f (u, v))) :
    ContDiffOn ℝ (min (du - ku) (dv - kv) : ℕ) f
      (Set.Icc (knot p.knotsU du) (knot p.knotsU m) ×ˢ
        Set.Icc (knot p.knotsV dv) (knot p.knotsV n)) := by
  have S := (sync_of_init hi).1
  set N := min (du - ku) (dv - kv)
  have hb : ∀ i j, i < m → j < n → ContDiffOn ℝ (N : ℕ)
      (fun x : ℝ × ℝ => basis (knot p.knotsU) (knot p.knotsU m) du i x.1
        * basis (knot p.knotsV) (knot p.knotsV n) dv j x.2)
      (Set.Icc (knot p.knotsU du) (knot p.knotsU m) ×ˢ
        Set.Icc (knot p.knotsV dv) (knot p.knotsV n)) := by
    intro i j hi hj
    have h1 := (basis_contDiff h.u fu hku hmu hi).of_le
      (m := (N : ℕ)) (by exact_mod_cast min_le_left _ _)
    have h2 := (basis_contDiff h.v fv hkv hmv hj).of_le
      (m := (N : ℕ)) (by exact_mod_cast min_le_right _ _)
    exact (h1.comp contDiffOn_fst fun x hx => hx.1).mul (h2.comp contDiffOn_snd fun x hx => hx.2)
  have hden : ContDiffOn ℝ (N : ℕ)
      (fun x : ℝ × ℝ => ratBSplineSurfaceDen du dv m n p.knotsU p.knotsV p.weights x.1 x.2)
      (Set.Icc (knot p.knotsU du) (knot p.knotsU m) ×ˢ
        Set.Icc (knot p.knotsV dv) (knot p.knotsV n)) := by
    unfold ratBSplineSurfaceDen
    exact ContDiffOn.sum fun i hi => ContDiffOn.sum fun j hj =>
      (hb i j (by simpa using hi) (by simpa using hj)).mul contDiffOn_const
  have hnum : ContDiffOn ℝ (N : ℕ)
      (fun x : ℝ × ℝ => ratBSplineSurface du dv m n p.knotsU p.knotsV p.grid p.weights x.1 x.2)
      (Set.Icc (knot p.knotsU du) (knot p.knotsU m) ×ˢ
        Set.Icc (knot p.knotsV dv) (knot p.knotsV n)) := by
    unfold ratBSplineSurface
    refine (hden.inv fun x hx => ?_).smul (ContDiffOn.sum fun i hi => ContDiffOn.sum fun j hj =>
      ((hb i j (by simpa using hi) (by simpa using hj)).mul contDiffOn_const).smul contDiffOn_const)
    exact (nurbsDen_pos h S hw ⟨hx.1.1, hx.1.2, Or.inl fu⟩ ⟨hx.2.1, hx.2.2, Or.inl fv⟩).ne'
  refine hnum.congr fun x hx => ?_
  have h1 := hf x.1 x.2 hx.1.1 hx.1.2 hx.2.1 hx.2.2
  rw [C63_nurbs_positive h hi hwu hwv hw ⟨hx.1.1, hx.1.2, Or.inl fu⟩ ⟨hx.2.1, hx.2.2, Or.inl fv⟩
    (Or.inr pu) (Or.inr pv)] at h1
  exact (ok.inj h1).symm

theorem nurbs_slice_u {p : NURBSPatch ℝ V} (h : NRegular p m n du dv)
    (hw : ∀ x ∈ p.weights, 0 < x) (hku : ku ≤ du) (hmu : MultLe p.knotsU m du ku) {v : ℝ}
    (h3 : knot p.knotsV dv ≤ v) (h4 : v ≤ knot p.knotsV n) :
    ContDiffOn ℝ (du - ku : ℕ)
      (fun s => ratBSplineSurface du dv m n p.knotsU p.knotsV p.grid p.weights s v)
      (Set.Icc (knot p.knotsU du) (knot p.knotsU m)) := by
  have S := (sync_of_init h.init).1
  have hb : ∀ i j, i < m → ContDiffOn ℝ (du - ku : ℕ)
      (fun s => basis (knot p.knotsU) (knot p.knotsU m) du i s
        * basis (knot p.knotsV) (knot p.knotsV n) dv j v)
      (Set.Icc (knot p.knotsU du) (knot p.knotsU m)) := fun i j hi =>
    (basis_contDiff h.valid.u h.firstU hku hmu hi).mul contDiffOn_const
  unfold ratBSplineSurface
  refine ContDiffOn.smul (ContDiffOn.inv ?_ fun s hs =>
    (nurbsDen_pos h.valid S hw ⟨hs.1, hs.2, Or.inl h.firstU⟩ ⟨h3, h4, Or.inl h.firstV⟩).ne')
    (ContDiffOn.sum fun i hi => ContDiffOn.sum fun j hj =>
      ((hb i j (by simpa using hi)).mul contDiffOn_const).smul contDiffOn_const)
  unfold ratBSplineSurfaceDen
  exact ContDiffOn.sum fun i hi => ContDiffOn.sum fun j hj =>
    (hb i j (by simpa using hi)).mul contDiffOn_const

theorem nurbs_slice_v {p : NURBSPatch ℝ V} (h : NRegular p m n du dv)
    (hw : ∀ x ∈ p.weights, 0 < x) (hkv : kv ≤ dv) (hmv : MultLe p.knotsV n dv kv) {u : ℝ}
    (h3 : knot p.knotsU du ≤ u) (h4 : u ≤ knot p.knotsU m) :
    ContDiffOn ℝ (dv - kv : ℕ)
      (fun s => ratBSplineSurface du dv m n p.knotsU p.knotsV p.grid p.weights u s)
      (Set.Icc (knot p.knotsV dv) (knot p.knotsV n)) := by
  have S := (sync_of_init h.init).1
  have hb : ∀ i j, j < n → ContDiffOn ℝ (dv - kv : ℕ)
      (fun s => basis (knot p.knotsU) (knot p.knotsU m) du i u
        * basis (knot p.knotsV) (knot p.knotsV n) dv j s)
      (Set.Icc (knot p.knotsV dv) (knot p.knotsV n)) := fun i j hj =>
    contDiffOn_const.mul (basis_contDiff h.valid.v h.firstV hkv hmv hj)
  unfold ratBSplineSurface
  refine ContDiffOn.smul (ContDiffOn.inv ?_ fun s hs =>
    (nurbsDen_pos h.valid S hw ⟨h3, h4, Or.inl h.firstU⟩ ⟨hs.1, hs.2, Or.inl h.firstV⟩).ne')
    (ContDiffOn.sum fun i hi => ContDiffOn.sum fun j hj =>
      ((hb i j (by simpa using hj)).mul contDiffOn_const).smul contDiffOn_const)
  unfold ratBSplineSurfaceDen
  exact ContDiffOn.sum fun i hi => ContDiffOn.sum fun j hj =>
    (hb i j (by simpa using hj)).mul contDiffOn_const

/-- C93: the partial derivatives of a NURBS patch with positive weights, knots included.  The second
derivatives are returned where the denominator exceeds the tolerance of the code. -/
theorem C93_nurbs_patch_derivatives {tol : ℝ} (h0 : 0 ≤ tol) {p : NURBSPatch ℝ V}
    (h : NRegular p m n du dv) (hw : ∀ x ∈ p.weights, 0 < x) (hku : ku + 1 ≤ du) (hkv : kv + 1 ≤ dv)
    (hmu : MultLe p.knotsU m du ku) (hmv : MultLe p.knotsV n dv kv) :
    ∃ f fu fv fuu fvv : ℝ → ℝ → V, ∀ u v, knot p.knotsU du < u → u < knot p.knotsU m →
      knot p.knotsV dv < v → v < knot p.knotsV n →
      p.evaluate u v = ok (f u v) ∧ p.derivU u v = ok (fu u v) ∧ p.derivV u v = ok (fv u v) ∧
      (tol < ratBSplineSurfaceDen du dv m n p.knotsU p.knotsV p.weights u v →
        p.derivUU tol u v = ok (fuu u v) ∧ p.derivVV tol u v = ok (fvv u v)) ∧
      HasDerivAt (fun s => f s v) (fu u v) u ∧ HasDerivAt (fun s => f u s) (fv u v) v ∧
      (ku + 2 ≤ du → HasDerivAt (fun s => fu s v) (fuu u v) u) ∧
      (kv + 2 ≤ dv → HasDerivAt (fun s => fv u s) (fvv u v) v) := by
  have S := (sync_of_init h.init).1
  obtain ⟨f, fu, fv, fuu, fvv, H⟩ := C63_nurbs_derivatives_partial h0 h
  have hpos : ∀ u v, InBox p m n du dv u v →
      ratBSplineSurfaceDen du dv m n p.knotsU p.knotsV p.weights u v ≠ 0 := fun u v b =>
    (nurbsDen_pos h.valid S hw ⟨b.1, b.2.1, Or.inl h.firstU⟩ ⟨b.2.2.1, b.2.2.2, Or.inl h.firstV⟩).ne'
  have hval : ∀ u v, InBox p m n du dv u v →
      f u v = ratBSplineSurface du dv m n p.knotsU p.knotsV p.grid p.weights u v := by
    intro u v b
    have h1 := ((H u v b).1 (hpos u v b)).1
    rw [(C63_nurbs_positive h.valid h.init h.wideU h.wideV hw ⟨b.1, b.2.1, Or.inl h.firstU⟩
      ⟨b.2.2.1, b.2.2.2, Or.inl h.firstV⟩ (Or.inr h.perU) (Or.inr h.perV))] at h1
    exact (ok.inj h1).symm
  refine ⟨f, fu, fv, fuu, fvv, fun u v u1 u2 v1 v2 => ?_⟩
  have b : InBox p m n du dv u v := ⟨u1.le, u2.le, v1.le, v2.le⟩
  have hb := (H u v b).1 (hpos u v b)
  have bu : ∀ s, knot p.knotsU du ≤ s → s ≤ knot p.knotsU m → InBox p m n du dv s v :=
    fun s s1 s2 => ⟨s1, s2, v1.le, v2.le⟩
  have bv : ∀ s, knot p.knotsV dv ≤ s → s ≤ knot p.knotsV n → InBox p m n du dv u s :=
    fun s s1 s2 => ⟨u1.le, u2.le, s1, s2⟩
  have tu := two_sided (f := fun s => f s v) (f' := fun s => fu s v) (f'' := fun s => fuu s v)
    ((nurbs_slice_u h hw (by omega : ku ≤ du) hmu v1.le v2.le).congr
      fun s hs => hval s v (bu s hs.1 hs.2))
    (fun s s1 s2 => ((H s v (bu s s1.le s2.le)).1 (hpos _ _ (bu s s1.le s2.le))).2.2.2.1.1 s2)
    (fun s s1 s2 => ((H s v (bu s s1.le s2.le)).1 (hpos _ _ (bu s s1.le s2.le))).2.2.2.2.1.1 s2)
    u1 u2
  have tv := two_sided (f := fun s => f u s) (f' := fun s => fv u s) (f'' := fun s => fvv u s)
    ((nurbs_slice_v h hw (by omega : kv ≤ dv) hmv u1.le u2.le).congr
      fun s hs => hval u s (bv s hs.1 hs.2))
    (fun s s1 s2 => ((H u s (bv s s1.le s2.le)).1 (hpos _ _ (bv s s1.le s2.le))).2.2.2.2.2.1.1 s2)
    (fun s s1 s2 => ((H u s (bv s s1.le s2.le)).1 (hpos _ _ (bv s s1.le s2.le))).2.2.2.2.2.2.1 s2)
    v1 v2
  exact ⟨hb.1, hb.2.1, hb.2.2.1, (H u v b).2, tu.1 (by omega), tv.1 (by omega),
    fun hm => tu.2 (by omega), fun hm => tv.2 (by omega)⟩

/-- Hypotheses of `C93_patch`: a biquadratic patch with a simple interior knot in one direction. -/
example : ∃ p : BSplinePatch ℝ ℝ, Regular p 4 3 2 2 ∧ MultLe p.knotsU 4 2 1 ∧
    MultLe p.knotsV 3 2 0 := by
  have ha : Axis ([0, 0, 0, 1, 2, 2, 2] : List ℝ) 2 (-1) 4 2 :=
    ⟨rfl, rfl, Or.inl (by decide), by decide, by simp, by simp [knot]⟩
  have hb : Axis ([0, 0, 0, 1, 1, 1] : List ℝ) 2 (-1) 3 2 :=
    ⟨rfl, rfl, Or.inl (by decide), by decide, by simp, by simp [knot]⟩
  have hwa : WideOn ([0, 0, 0, 1, 2, 2, 2] : List ℝ) 4 2 := by
    intro i h1 h2 h3
    interval_cases i <;> simp [knot, BSpline.tiny] <;> norm_num
  have hwb : WideOn ([0, 0, 0, 1, 1, 1] : List ℝ) 3 2 := by
    intro i h1 h2 h3
    interval_cases i
    simp [knot, BSpline.tiny]; norm_num
  have hv : Valid (BSplinePatch.mk [0, 1, 3, 2, 5, 4, 1, 1, 0, 3, 2, 6] [0, 0, 0, 1, 2, 2, 2]
      [0, 0, 0, 1, 1, 1] 2 2 false false (-1) (-1) [] [] : BSplinePatch ℝ ℝ) 4 3 2 2 := ⟨ha, hb, rfl⟩
  obtain ⟨q, e, e', hq, g, k1, k2, -, -, p1, p2⟩ := C31_init hv
  refine ⟨q, ⟨hq, e', p1, p2, by rw [k1]; exact hwa, by rw [k2]; exact hwb,
    by rw [k1]; simp [knot], by rw [k2]; simp [knot]⟩, ?_, ?_⟩
  · rw [k1]
    exact bump_mult
  · rw [k2]
    intro τ h1 h2
    simp [knot] at h1 h2
    simp [h1.ne, h2.ne']

end NS.Props
