import Verif.Model.ControlSearch
import Verif.Proof.Turned

/-!
# Splits and sub-patches commute with linear maps of the control points

For every object, valid or not; errors are the same.
-/

set_option linter.unusedSectionVars false

namespace NS

open Outcome

variable {K V W : Type} [Field K] [LinearOrder K] [IsStrictOrderedRing K] [FloorRing K]
  [AddCommGroup V] [Module K V] [AddCommGroup W] [Module K W]

theorem copyTo_map {α β : Type} (f : α → β) (n : ℕ) (idx : ℕ → ℕ) (src g : List α) :
    copyTo n idx (src.map f) (g.map f) = List.map f <$> copyTo n idx src g := by
  unfold copyTo
  refine loop_map (List.map f) n _ _ g fun i _ s => ?_
  exact bind_map_rel (rd_map f _ _) fun x _ => wr_map f _ _ _

theorem replicate_zero_map (f : V →ₗ[K] W) (n : ℕ) : (List.replicate n (0 : V)).map f = List.replicate n (0 : W) := by
  simp

namespace Bezier

variable (f : V →ₗ[K] W)

theorem splitLoop_image (t : K) (c : List V) :
    splitLoop t (c.map f) = (fun s => (s.1.map f, s.2.1.map f, s.2.2.map f)) <$> splitLoop t c := by
  unfold splitLoop
  rw [List.length_map]
  have e : (c.map f, List.replicate c.length (0 : W), List.replicate c.length (0 : W))
      = (fun s : List V × List V × List V => (s.1.map f, s.2.1.map f, s.2.2.map f))
        (c, List.replicate c.length 0, List.replicate c.length 0) := by
    simp
  dsimp only
  rw [e]
  refine loop_map (fun s : List V × List V × List V => (s.1.map f, s.2.1.map f, s.2.2.map f)) _ _ _ (_, _, _)
    fun i _ s => ?_
  obtain ⟨c0, c1, c2⟩ := s
  refine bind_map_rel (rd_map f _ _) fun a _ => bind_map_rel (wr_map f _ _ _) fun c1' _ => ?_
  refine bind_map_rel (rd_map f _ _) fun b _ => bind_map_rel (wr_map f _ _ _) fun c2' _ => ?_
  refine bind_map_rel (φ := List.map f) (loop_map (List.map f) _ _ _ _ fun j _ c => ?_) fun c' _ => rfl
  refine bind_map_rel (rd_map f _ _) fun x _ => bind_map_rel (rd_map f _ _) fun y _ => ?_
  rw [← wr_map, map_add, map_smul, map_smul]

theorem split_image (t : K) (c : Bezier V) : (image f c).split t = List.map (image f) <$> c.split t := by
  unfold split
  split_ifs
  · exact bind_map_rel (splitLoop_image f t c.ctrl) fun s _ => rfl
  · rfl

theorem freeSplit_image (eps t : K) (c : Bezier V) :
    freeSplit eps (image f c) t = List.map (image f) <$> freeSplit eps c t := by
  unfold freeSplit
  refine bind_map_same fun _ _ => ?_
  split_ifs
  · rfl
  · rfl
  · refine bind_map_rel (split_image f t c) fun r _ => ?_
    exact bind_map_rel (rd_map _ _ _) fun a _ => bind_map_rel (rd_map _ _ _) fun b _ => rfl

end Bezier

namespace BezierPatch

variable (f : V →ₗ[K] W) (p : BezierPatch V)

theorem splitStep_image (eps : K) (iso : Bezier V) (u : K) (n : ℕ) (idx : ℕ → ℕ) (gs : List V × List V) :
    splitStep eps (Bezier.image f iso) u n idx (gs.1.map f, gs.2.map f)
      = (fun s => (s.1.map f, s.2.map f)) <$> splitStep eps iso u n idx gs := by
  unfold splitStep
  refine bind_map_rel (Bezier.freeSplit_image f eps u iso) fun parts _ => ?_
  refine bind_map_rel (rd_map _ _ _) fun c0 _ => bind_map_rel (copyTo_map f _ _ _ _) fun g0 _ => ?_
  exact bind_map_rel (rd_map _ _ _) fun c1 _ => bind_map_rel (copyTo_map f _ _ _ _) fun g1 _ => rfl

theorem splitU_image (eps u : K) : (image f p).splitU eps u = List.map (image f) <$> p.splitU eps u := by
  unfold splitU
  refine bind_map_same fun _ _ => ?_
  split_ifs
  · rfl
  · refine bind_map_rel (isoCurvesU_image f p) fun isos _ => bind_map_same fun m _ => bind_map_same fun n _ => ?_
    refine bind_map_rel (φ := fun s : List V × List V => (s.1.map f, s.2.map f)) ?_ fun gs _ => rfl
    rw [← replicate_zero_map f]
    refine loop_map (fun s : List V × List V => (s.1.map f, s.2.map f)) n _ _ (_, _) fun i _ s => ?_
    exact bind_map_rel (rd_map _ _ _) fun iso _ => splitStep_image f eps iso u _ _ s

theorem splitV_image (eps u : K) : (image f p).splitV eps u = List.map (image f) <$> p.splitV eps u := by
  unfold splitV
  refine bind_map_same fun _ _ => ?_
  split_ifs
  · rfl
  · refine bind_map_rel (isoCurvesV_image f p) fun isos _ => bind_map_same fun m _ => bind_map_same fun n _ => ?_
    refine bind_map_rel (φ := fun s : List V × List V => (s.1.map f, s.2.map f)) ?_ fun gs _ => rfl
    rw [← replicate_zero_map f]
    refine loop_map (fun s : List V × List V => (s.1.map f, s.2.map f)) m _ _ (_, _) fun i _ s => ?_
    exact bind_map_rel (rd_map _ _ _) fun iso _ => splitStep_image f eps iso u _ _ s

theorem cut_image {g : K → Outcome (List (BezierPatch V))} {g' : K → Outcome (List (BezierPatch W))}
    (h : ∀ u, g' u = List.map (image f) <$> g u) (u : K) (i : ℕ) :
    cut g' u i (image f p) = image f <$> cut g u i p := by
  unfold cut
  split_ifs
  · rfl
  · exact bind_map_rel (h u) fun ps _ => rd_map _ _ _

theorem subpatch_image (eps a b c d : K) :
    (image f p).subpatch eps a b c d = image f <$> p.subpatch eps a b c d := by
  unfold subpatch
  refine bind_map_same fun _ _ => bind_map_same fun _ _ => bind_map_same fun _ _ => bind_map_same fun _ _ => ?_
  refine bind_map_rel (cut_image f p (splitU_image f p eps) _ _) fun p1 _ => ?_
  refine bind_map_rel (cut_image f p1 (splitU_image f p1 eps) _ _) fun p2 _ => ?_
  refine bind_map_rel (cut_image f p2 (splitV_image f p2 eps) _ _) fun p3 _ => ?_
  exact cut_image f p3 (splitV_image f p3 eps) _ _

end BezierPatch

namespace BSplinePatch

variable (f : V →ₗ[K] W) (p : BSplinePatch K V)

theorem refRows_image (parts : List (List (BSpline K V))) (i : ℕ) :
    refRows (parts.map (List.map (BSpline.image f))) i = BSpline.image f <$> refRows parts i := by
  unfold refRows
  exact bind_map_rel (rd_map _ _ _) fun r _ => rd_map _ _ _

theorem gather_image (parts : List (List (BSpline K V))) (ci n : ℕ) (idx : ℕ → ℕ → ℕ → ℕ) (rows : ℕ) :
    gather (parts.map (List.map (BSpline.image f))) ci n idx rows = List.map f <$> gather parts ci n idx rows := by
  unfold gather
  rw [← replicate_zero_map f]
  refine loop_map (List.map f) n _ _ _ fun i _ s => ?_
  refine bind_map_rel (rd_map _ _ _) fun ps _ => bind_map_rel (rd_map _ _ _) fun c _ => ?_
  rw [show (BSpline.image f c).ctrl = c.ctrl.map f from rfl, List.length_map]
  exact copyTo_map f _ _ _ _

theorem partU_image (parts : List (List (BSpline K V))) (n ci : ℕ) :
    (image f p).partU (parts.map (List.map (BSpline.image f))) n ci = image f <$> p.partU parts n ci := by
  unfold partU
  refine bind_map_rel (refRows_image f parts ci) fun ref _ => ?_
  rw [show (BSpline.image f ref).ctrl.length = ref.ctrl.length by simp [BSpline.image],
    show (BSpline.image f ref).degree = ref.degree from BSpline.image_degree f ref]
  refine bind_map_rel (gather_image f parts ci n _ _) fun g _ => bind_map_same fun dv _ => ?_
  exact init_image f (BSplinePatch.mk g ref.knots p.knotsV (p.partDegree ref.degree p.sU) (p.partDegree dv p.sV) false false
    p.sU p.sV [] [])

theorem partV_image (parts : List (List (BSpline K V))) (m ci : ℕ) :
    (image f p).partV (parts.map (List.map (BSpline.image f))) m ci = image f <$> p.partV parts m ci := by
  unfold partV
  refine bind_map_rel (refRows_image f parts ci) fun ref _ => ?_
  rw [show (BSpline.image f ref).ctrl.length = ref.ctrl.length by simp [BSpline.image],
    show (BSpline.image f ref).degree = ref.degree from BSpline.image_degree f ref]
  refine bind_map_rel (gather_image f parts ci m _ _) fun g _ => bind_map_same fun du _ => ?_
  exact init_image f (BSplinePatch.mk g p.knotsU ref.knots (p.partDegree du p.sU) (p.partDegree ref.degree p.sV) false false
    p.sU p.sV [] [])

theorem splitU_image (eps u : K) : (image f p).splitU eps u = List.map (image f) <$> p.splitU eps u := by
  unfold splitU
  refine bind_map_same fun lo _ => bind_map_same fun hi _ => ?_
  split_ifs
  · rfl
  · refine bind_map_same fun n _ => ?_
    refine bind_map_rel (φ := List.map (List.map (BSpline.image f))) (tab_image fun j _ => ?_) fun parts _ => ?_
    · exact bind_map_rel (rd_map _ _ _) fun iso _ => BSpline.split_map f iso eps u
    · exact bind_map_rel (partU_image f p parts n 0) fun a _ => bind_map_rel (partU_image f p parts n 1) fun b _ => rfl

theorem splitV_image (eps u : K) : (image f p).splitV eps u = List.map (image f) <$> p.splitV eps u := by
  unfold splitV
  refine bind_map_same fun lo _ => bind_map_same fun hi _ => bind_map_same fun _ _ => ?_
  split_ifs
  · rfl
  · refine bind_map_same fun n _ => ?_
    refine bind_map_rel (φ := List.map (List.map (BSpline.image f))) (tab_image fun j _ => ?_) fun parts _ => ?_
    · exact bind_map_rel (rd_map _ _ _) fun iso _ => BSpline.split_map f iso eps u
    · exact bind_map_rel (partV_image f p parts n 0) fun a _ => bind_map_rel (partV_image f p parts n 1) fun b _ => rfl

theorem cut_image {g : K → Outcome (List (BSplinePatch K V))} {g' : K → Outcome (List (BSplinePatch K W))}
    (h : ∀ u, g' u = List.map (image f) <$> g u) (e : Bool) (u : K) (i : ℕ) :
    cut g' e u i (image f p) = image f <$> cut g e u i p := by
  unfold cut
  split_ifs
  · rfl
  · exact bind_map_rel (h u) fun ps _ => rd_map _ _ _

theorem subpatch_image (eps a b c d : K) :
    (image f p).subpatch eps a b c d = image f <$> p.subpatch eps a b c d := by
  unfold subpatch
  refine bind_map_same fun ul _ => bind_map_same fun uh _ => bind_map_same fun vl _ => bind_map_same fun vh _ => ?_
  refine bind_map_same fun _ _ => bind_map_same fun _ _ => bind_map_same fun _ _ => bind_map_same fun _ _ => ?_
  refine bind_map_rel (cut_image f p (splitU_image f p eps) _ _ _) fun p1 _ => ?_
  refine bind_map_rel (cut_image f p1 (splitU_image f p1 eps) _ _ _) fun p2 _ => ?_
  refine bind_map_rel (cut_image f p2 (splitV_image f p2 eps) _ _ _) fun p3 _ => ?_
  exact cut_image f p3 (splitV_image f p3 eps) _ _ _

end BSplinePatch

end NS
