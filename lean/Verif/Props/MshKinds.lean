import Verif.Model.MshKinds
import Verif.Props.MshFile

/-! # C98: reported types and files that load again -/

set_option linter.unusedSectionVars false

namespace NS

open Outcome

variable {K V : Type} [Field K] [LinearOrder K] [IsStrictOrderedRing K] [FloorRing K]
  [AddCommGroup V] [Module K V]

/-! ### Specification -/

/-- The class of a curve with control points. -/
def AnyCurve.cls : AnyCurve K V → CurveClass
  | .bezier _ => .Bezier
  | .rational _ => .RationalBezier
  | .bspline _ => .BSpline
  | .nurbs _ => .NURBS

/-- The class of a patch with control points. -/
def AnyPatch.cls : AnyPatch K V → PatchClass
  | .bezier _ => .BezierPatch
  | .rational _ => .RationalBezierPatch
  | .bspline _ => .BSplinePatch
  | .nurbs _ => .NURBSPatch

/-- The curve classes without control points. -/
def CurveClass.Primitive (c : CurveClass) : Prop := c = .Line ∨ c = .Circle ∨ c = .Ellipse

/-- The patch classes without control points. -/
def PatchClass.Primitive (c : PatchClass) : Prop :=
  c ≠ .BezierPatch ∧ c ≠ .RationalBezierPatch ∧ c ≠ .BSplinePatch ∧ c ≠ .NURBSPatch

/-! ### Lemmas -/

theorem saveCurveRecords_append (as bs : List (CurveApi K)) : ∀ tag : ℕ,
    saveCurveRecords (as ++ bs) tag = (do
      let x ← saveCurveRecords as tag
      let y ← saveCurveRecords bs (tag + as.length)
      pure (x ++ y)) := by
  induction as with
  | nil =>
    intro tag
    simp only [List.nil_append, List.length_nil, saveCurveRecords, ok_bind, Nat.add_zero]
    cases saveCurveRecords bs tag <;> rfl
  | cons a as ih =>
    intro tag
    simp only [List.cons_append, saveCurveRecords, ih, bind_assoc, List.length_cons, pure_eq, ok_bind,
      Nat.add_assoc, Nat.add_comm 1]

theorem savePatchRecords_append (as bs : List (PatchApi K)) : ∀ tag : ℕ,
    savePatchRecords (as ++ bs) tag = (do
      let x ← savePatchRecords as tag
      let y ← savePatchRecords bs (tag + as.length)
      pure (x ++ y)) := by
  induction as with
  | nil =>
    intro tag
    simp only [List.nil_append, List.length_nil, savePatchRecords, ok_bind, Nat.add_zero]
    cases savePatchRecords bs tag <;> rfl
  | cons a as ih =>
    intro tag
    simp only [List.cons_append, savePatchRecords, ih, bind_assoc, List.length_cons, pure_eq, ok_bind,
      Nat.add_assoc, Nat.add_comm 1]

theorem loadCurves_append (as bs : List (MshCurve K)) :
    loadCurves (as ++ bs) = (do
      let x ← loadCurves as
      let y ← loadCurves bs
      pure (x ++ y)) := by
  induction as with
  | nil =>
    simp only [List.nil_append, loadCurves, ok_bind]
    cases loadCurves bs <;> rfl
  | cons a as ih => simp only [List.cons_append, loadCurves, ih, bind_assoc, pure_eq, ok_bind]

theorem loadPatches_append (as bs : List (MshPatch K)) :
    loadPatches (as ++ bs) = (do
      let x ← loadPatches as
      let y ← loadPatches bs
      pure (x ++ y)) := by
  induction as with
  | nil =>
    simp only [List.nil_append, loadPatches, ok_bind]
    cases loadPatches bs <;> rfl
  | cons a as ih => simp only [List.cons_append, loadPatches, ih, bind_assoc, pure_eq, ok_bind]

theorem loadCurve_type {s : MshCurve K} {c : AnyCurve K (P3 K)} (h : loadCurve s = ok c) :
    s.ctype = c.kind := by
  unfold loadCurve at h
  split_ifs at h with h1 h2 h3 h4
  all_goals
      (obtain ⟨x, -, h⟩ := bind_eq_ok.1 h
       rw [pure_eq, ok.injEq] at h
       subst h
       assumption)

theorem loadPatch_type {s : MshPatch K} {c : AnyPatch K (P3 K)} (h : loadPatch s = ok c) :
    s.ptype = c.kind := by
  unfold loadPatch at h
  split_ifs at h with h1 h2 h3 h4
  all_goals
      (obtain ⟨x, -, h⟩ := bind_eq_ok.1 h
       rw [pure_eq, ok.injEq] at h
       subst h
       assumption)

/-- The record of a primitive curve. -/
theorem addCurve_primitive {dim : ℕ} (hd : dim = 2 ∨ dim = 3) (c : CurveClass) (tag : ℕ) :
    addCurve (primitiveCurve dim c : CurveApi K) tag =
      ok ⟨tag, (curveType c).val, 2 ^ 64 - 1, 0, 0, false, []⟩ := by
  unfold addCurve primitiveCurve
  rw [throwIf_false (by rcases hd with rfl | rfl <;> simp)]
  rfl

/-- The record of a primitive patch. -/
theorem addPatch_primitive (dim : ℕ) (base : ℕ × ℕ) (c : PatchClass) (tag : ℕ) :
    addPatch (primitivePatch dim base c : PatchApi K) tag =
      ok ⟨tag, 1, (primitiveDegrees base c).1, (primitiveDegrees base c).2, 0, 0, 0, false, []⟩ := rfl

/-! ### Types -/

/-- **C98** (curve types).  Two curves report the same type exactly if they are of the same class. -/
theorem C98_curve_types (a b : CurveClass) : (curveType a).val = (curveType b).val ↔ a = b := by
  cases a <;> cases b <;> simp [curveType, CurveEnum.val]

/-- C98, proved part (patch types): two patches of classes other than `RationalBezierPatch` report the same
type exactly if they are of the same class.
Missing: rational Bezier patches, see `C98_patch_types_refuted`. -/
theorem C98_patch_types_partial (a b : PatchClass) (ha : a ≠ .RationalBezierPatch)
    (hb : b ≠ .RationalBezierPatch) : (patchType a).val = (patchType b).val ↔ a = b := by
  cases a <;> cases b <;> simp_all [patchType, PatchEnum.val]

/-- C98 is false for rational Bezier patches: they report the type of Bezier patches, and no class reports
the type of rational Bezier patches. -/
theorem C98_patch_types_refuted :
    (patchType .RationalBezierPatch).val = (patchType .BezierPatch).val ∧
      ∀ c, patchType c ≠ .rationalBezier :=
  ⟨rfl, fun c => by cases c <;> simp [patchType]⟩

/-- **C98** (types in files, curves).  The record saved for a usable curve of the plane or of space has the
type that the curve reports, and the loaded curve is of the same class. -/
theorem C98_curve_record {dim : ℕ} {co : V → List K} {e : V → P3 K} (hd : Coords dim co e)
    (c : AnyCurve K V) (hc : c.Ready) (tag : ℕ) :
    ∃ s c', addCurve (c.api dim co) tag = ok s ∧ s.ctype = (curveType c.cls).val ∧ loadCurve s = ok c' ∧
      c'.cls = c.cls := by
  obtain ⟨s, c', h1, -, h3, h4, -⟩ := roundtrip_curve hd c hc tag
  refine ⟨s, c', h1, (loadCurve_type h3).trans (h4.trans ?_), h3, ?_⟩
  · cases c <;> rfl
  · cases c <;> cases c' <;> first | rfl | simp [AnyCurve.kind] at h4

/-- C98, proved part (types in files, patches): the loaded patch is of the same class, and the record has
the type that the patch reports unless it is a rational Bezier patch.
Missing: the type of rational Bezier patches, see `C98_patch_record_refuted`. -/
theorem C98_patch_record_partial {dim : ℕ} {co : V → List K} {e : V → P3 K} (hd : Coords dim co e)
    (p : AnyPatch K V) (hp : p.Ready) (tag : ℕ) :
    ∃ s p', addPatch (p.api dim co) tag = ok s ∧ loadPatch s = ok p' ∧ p'.cls = p.cls ∧
      (p.cls ≠ .RationalBezierPatch → s.ptype = (patchType p.cls).val) := by
  obtain ⟨s, p', h1, -, h3, h4, -⟩ := roundtrip_patch hd p hp tag
  refine ⟨s, p', h1, h3, ?_, fun hr => (loadPatch_type h3).trans (h4.trans ?_)⟩
  · cases p <;> cases p' <;> first | rfl | simp [AnyPatch.kind] at h4
  · cases p <;> first | rfl | exact absurd rfl hr

/-- C98 is false for the records of rational Bezier patches: their type is never the reported one. -/
theorem C98_patch_record_refuted {dim : ℕ} {co : V → List K} {e : V → P3 K} (hd : Coords dim co e)
    (p : AnyPatch K V) (hp : p.Ready) (hr : p.cls = .RationalBezierPatch) (tag : ℕ) :
    ∃ s, addPatch (p.api dim co) tag = ok s ∧ s.ptype = 2 ∧ (patchType p.cls).val = 1 := by
  obtain ⟨s, p', h1, -, h3, h4, -⟩ := roundtrip_patch hd p hp tag
  refine ⟨s, h1, (loadPatch_type h3).trans (h4.trans ?_), by rw [hr]; rfl⟩
  cases p <;> first | rfl | cases hr

/-! ### Files -/

/-- C98, proved part (files): a file saved from usable spline curves and patches loads, entry by entry with
the class of the saved object.
Missing: curves and patches without control points, see `C98_primitive_curve_refuted` and
`C98_primitive_patch_refuted`. -/
theorem C98_file_partial {dim : ℕ} {co : V → List K} (e : V →ᵃ[K] P3 K) (hd : Coords dim co e)
    (cs : List (AnyCurve K V)) (ps : List (AnyPatch K V))
    (hc : ∀ c ∈ cs, c.Ready) (hp : ∀ p ∈ ps, p.Ready) :
    ∃ f cs' ps', saveMshRecords (cs.map (·.api dim co)) (ps.map (·.api dim co)) = ok f ∧
      loadMsh f = ok (cs', ps') ∧ cs'.map (·.cls) = cs.map (·.cls) ∧ ps'.map (·.cls) = ps.map (·.cls) := by
  obtain ⟨f, cs', ps', h1, h2, -, -, h3, h4⟩ := file_roundtrip e hd cs ps hc hp
  refine ⟨f, cs', ps', h1, h2, ?_, ?_⟩
  · clear h1 h2 hc
    induction h3 with
    | nil => rfl
    | cons h _ ih =>
      rename_i c c' _ _ _
      have h := h.1
      rw [List.map_cons, List.map_cons, ih]
      congr 1
      cases c <;> cases c' <;> first | rfl | simp [AnyCurve.kind] at h
  · clear h1 h2 hp
    induction h4 with
    | nil => rfl
    | cons h _ ih =>
      rename_i c c' _ _ _
      have h := h.1
      rw [List.map_cons, List.map_cons, ih]
      congr 1
      cases c <;> cases c' <;> first | rfl | simp [AnyPatch.kind] at h

/-- C98 is false for files with a line, circle or ellipse: wherever it stands among usable curves, saving
succeeds, and loading the file throws, so that none of the other entries can be had either. -/
theorem C98_primitive_curve_refuted {dim : ℕ} {co : V → List K} (e : V →ᵃ[K] P3 K) (hd : Coords dim co e)
    (as bs : List (AnyCurve K V)) (ps : List (AnyPatch K V)) (ha : ∀ c ∈ as, c.Ready)
    (hb : ∀ c ∈ bs, c.Ready) (hp : ∀ p ∈ ps, p.Ready) (c : CurveClass) (hc : c.Primitive) :
    ∃ f, saveMshRecords (as.map (·.api dim co) ++ primitiveCurve dim c :: bs.map (·.api dim co))
        (ps.map (·.api dim co)) = ok f ∧ loadMsh f = .throw .invalidSetting := by
  have hdim : dim = 2 ∨ dim = 3 := by rcases hd with ⟨h, -⟩ | ⟨h, -⟩ <;> simp [h]
  obtain ⟨x, as', a1, a2, -, a4, -⟩ := curves_roundtrip e hd as ha 1
  obtain ⟨y, bs', b1, b2, -⟩ := curves_roundtrip e hd bs hb (1 + as.length + 1)
  obtain ⟨z, ps', c1, c2, -⟩ := patches_roundtrip e hd ps hp 1
  refine ⟨_, by
    unfold saveMshRecords
    rw [saveCurveRecords_append, a1, ok_bind, saveCurveRecords, addCurve_primitive hdim, ok_bind,
      List.length_map, b1, ok_bind, pure_eq, ok_bind, pure_eq, ok_bind, c1, ok_bind, pure_eq], ?_⟩
  unfold loadMsh
  rw [loadCurves_append, a2, ok_bind, loadCurves]
  have : loadCurve (⟨1 + as.length, (curveType c).val, 2 ^ 64 - 1, 0, 0, false, []⟩ : MshCurve K) =
      .throw .invalidSetting := by
    rcases hc with rfl | rfl | rfl <;> rfl
  rw [this]
  rfl

/-- C98 is false for files with a plane, quadric, torus, swept or offset surface: wherever it stands among
usable patches, saving succeeds, and loading the file fails an assertion. -/
theorem C98_primitive_patch_refuted {dim : ℕ} {co : V → List K} (e : V →ᵃ[K] P3 K) (hd : Coords dim co e)
    (cs : List (AnyCurve K V)) (as bs : List (AnyPatch K V)) (hc : ∀ c ∈ cs, c.Ready)
    (ha : ∀ p ∈ as, p.Ready) (hb : ∀ p ∈ bs, p.Ready) (base : ℕ × ℕ) (c : PatchClass) (_h : c.Primitive) :
    ∃ f, saveMshRecords (cs.map (·.api dim co))
        (as.map (·.api dim co) ++ primitivePatch dim base c :: bs.map (·.api dim co)) = ok f ∧
      loadMsh f = ub := by
  obtain ⟨x, as', a1, a2, -, a4, -⟩ := patches_roundtrip e hd as ha 1
  obtain ⟨y, bs', b1, b2, -⟩ := patches_roundtrip e hd bs hb (1 + as.length + 1)
  obtain ⟨z, cs', c1, c2, -⟩ := curves_roundtrip e hd cs hc 1
  refine ⟨_, by
    unfold saveMshRecords
    rw [c1, ok_bind, savePatchRecords_append, a1, ok_bind, savePatchRecords, addPatch_primitive, ok_bind,
      List.length_map, b1, ok_bind, pure_eq, ok_bind, pure_eq, ok_bind, pure_eq], ?_⟩
  unfold loadMsh
  rw [c2, ok_bind, loadPatches_append, a2, ok_bind, loadPatches]
  have : loadPatch (⟨1 + as.length, 1, (primitiveDegrees base c).1, (primitiveDegrees base c).2, 0, 0, 0,
      false, []⟩ : MshPatch K) = ub := by
    unfold loadPatch loadBezierPatch
    rw [if_pos rfl, assert_false (by
      intro h
      exact absurd h.symm (Nat.mul_ne_zero (Nat.succ_ne_zero _) (Nat.succ_ne_zero _)))]
    rfl
  rw [this]
  rfl

/-- C98 is false for such patches also without assertions: the loader then throws. -/
theorem C98_primitive_patch_release_refuted (dim : ℕ) (base : ℕ × ℕ) (c : PatchClass) (_h : c.Primitive)
    (tag : ℕ) : ∃ s, addPatch (primitivePatch dim base c : PatchApi K) tag = ok s ∧ s.ptype = 1 ∧
      loadBezierPatchRelease s = .throw .invalidSetting := by
  refine ⟨_, addPatch_primitive dim base c tag, rfl, ?_⟩
  unfold loadBezierPatchRelease
  have hx : extractCtrl (K := K) false 0 [] = ok [] := rfl
  rw [hx, ok_bind]
  unfold BezierPatch.init
  simp only [BezierPatch.degreeU, BezierPatch.degreeV]
  rw [assert_true (by omega), ok_bind, pure_eq, ok_bind, assert_true (by omega), ok_bind, pure_eq, ok_bind,
    throwIf_true]
  · rfl
  · intro h
    have : (0 : ℕ) = _ := h
    exact absurd this.symm (Nat.mul_ne_zero (Nat.succ_ne_zero _) (Nat.succ_ne_zero _))

/-! ### Concrete cases -/

/-- A file with a Bezier curve, a circle and another curve is saved and cannot be loaded. -/
example : ∃ f, saveMshRecords (K := ℚ)
    ([AnyCurve.bezier ⟨[(0, 0, 0), (1, 0, 2)], false⟩].map (·.api 3 xyz) ++ primitiveCurve 3 .Circle ::
      [AnyCurve.bezier ⟨[(0, 0, 1)], false⟩].map (·.api 3 xyz)) [] = ok f ∧
    loadMsh f = .throw .invalidSetting :=
  C98_primitive_curve_refuted (AffineMap.id ℚ (P3 ℚ)) coords_xyz
    [.bezier ⟨[(0, 0, 0), (1, 0, 2)], false⟩] [.bezier ⟨[(0, 0, 1)], false⟩] []
    (by intro c hc; fin_cases hc; exact List.cons_ne_nil _ _)
    (by intro c hc; fin_cases hc; exact List.cons_ne_nil _ _) (by simp) .Circle (Or.inr (Or.inl rfl))

/-- A usable rational Bezier patch: its record has type 2, it reports 1. -/
example : ∃ s, addPatch ((AnyPatch.rational (K := ℚ) (V := P3 ℚ) ⟨⟨[(0, 0, 0)], 0, 0, false, false, -1, -1⟩,
    [2], ⟨[((0, 0, 0), 2)], 0, 0, false, false, -1, -1⟩⟩).api 3 xyz) 1 = ok s ∧ s.ptype = 2 := by
  obtain ⟨s, h1, h2, -⟩ := C98_patch_record_refuted coords_xyz (AnyPatch.rational (K := ℚ) (V := P3 ℚ)
    ⟨⟨[(0, 0, 0)], 0, 0, false, false, -1, -1⟩, [2], ⟨[((0, 0, 0), 2)], 0, 0, false, false, -1, -1⟩⟩)
    (show RationalBezierPatch.init _ = ok _ by decide +kernel) rfl 1
  exact ⟨s, h1, h2⟩

end NS
