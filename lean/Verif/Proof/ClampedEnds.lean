import Verif.Props.FloatPatch
import Verif.Proof.BezierPatch
import Verif.Proof.Rational

/-!
# Clamped ends in exact arithmetic
-/

namespace NS

open Outcome Spec Finset BSpline
open Fl (ClampedOn)

variable {K V : Type} [Field K] [LinearOrder K] [IsStrictOrderedRing K] [FloorRing K]
  [AddCommGroup V] [Module K V]

namespace BSplinePatch

variable {u : List K} {deg s : ℤ} {n p : ℕ}

/-- The first and last control points are the values at the ends of a clamped knot vector. -/
theorem Axis.clamped (h : Axis u deg s n p) (hc : ClampedOn u n p) (P : ℕ → V) :
    bsum p u n P (knot u p) = P 0 ∧ bsum p u n P (knot u n) = P (n - 1) := by
  have hl := h.len
  have hn := h.cnt
  have hlen : u.length = (arr n P).length + p + 1 := by simpa using hl
  have hn1 : n - 1 + 1 = n := by omega
  rw [← bsplinePoint_arr, ← bsplinePoint_arr]
  constructor
  · obtain ⟨Q, hQ⟩ := exists_repr h.sorted (fun i => (arr n P).getD i 0) (k := p) le_rfl (by omega)
      hc.first
    have hin : InSpan (knot u) (knot u (arr n P).length) p (knot u p) := by
      unfold InSpan
      simp only [arr_length]
      rw [if_neg h.dom.ne]
      exact ⟨le_rfl, hc.first⟩
    rw [bsplinePoint_eq h.sorted hlen hin le_rfl (by simp; omega) hQ]
    have := hQ 0 (by omega) (by omega)
    simp only at this
    rw [arr_getD _ _ _ _ (by omega)] at this
    rw [this, lprod_const (t := knot u p)]
    intro i hi
    exact hc.low _ (by omega) (by omega)
  · obtain ⟨Q, hQ⟩ := exists_repr h.sorted (fun i => (arr n P).getD i 0) (k := n - 1) (p := p) (by omega)
      (by omega) (by rw [hn1]; exact hc.last)
    have hin : InSpan (knot u) (knot u (arr n P).length) (n - 1) (knot u n) := by
      unfold InSpan
      simp only [arr_length]
      rw [if_pos trivial, hn1]
      exact ⟨hc.last, rfl⟩
    rw [bsplinePoint_eq h.sorted hlen hin (by omega) (by simp; omega) hQ]
    have := hQ (n - 1) (by omega) le_rfl
    simp only at this
    rw [arr_getD _ _ _ _ (by omega)] at this
    rw [this, lprod_const (t := knot u n)]
    intro i hi
    exact hc.high _ (by omega) (by omega)

theorem clamped_inner (h : Axis u deg s n (p + 1)) (hc : ClampedOn u n (p + 1)) :
    ClampedOn (innerKnots u) (n - 1) p := by
  have hl := h.len
  have hn := h.cnt
  have hk : ∀ i, i + 2 < u.length → knot (innerKnots u) i = knot u (i + 1) := fun i hi => inner_knot hi
  refine ⟨?_, ?_, ?_, ?_⟩
  · rw [hk _ (by omega), hk _ (by omega)]; exact hc.first
  · intro j j1 j2
    rw [hk _ (by omega), hk _ (by omega)]
    exact hc.low _ (by omega) (by omega)
  · rw [hk _ (by omega), hk _ (by omega)]
    have e1 : n - 1 - 1 + 1 = n - 1 := by omega
    have e2 : n - 1 + 1 = n := by omega
    rw [e1, e2]; exact hc.last
  · intro j j1 j2
    have e2 : n - 1 + 1 = n := by omega
    rw [hk _ (by omega), hk _ (by omega), e2]
    exact hc.high _ (by omega) (by omega)

/-- The derivative at the ends of a clamped knot vector. -/
theorem Axis.clamped_deriv (h : Axis u deg s n (p + 1)) (hc : ClampedOn u n (p + 1)) (P : ℕ → V) :
    bsum p (innerKnots u) (n - 1) (hodoAt (knot u) (p + 1) P) (knot u (p + 1))
      = (((p : K) + 1) / (knot u (p + 2) - knot u (p + 1))) • (P 1 - P 0) ∧
    bsum p (innerKnots u) (n - 1) (hodoAt (knot u) (p + 1) P) (knot u n)
      = (((p : K) + 1) / (knot u n - knot u (n - 1))) • (P (n - 1) - P (n - 2)) := by
  have hl := h.len
  have hn := h.cnt
  obtain ⟨hi, k1, k2, -⟩ := h.inner
  obtain ⟨e1, e2⟩ := hi.clamped (clamped_inner h hc) (hodoAt (knot u) (p + 1) P)
  rw [k1] at e1
  rw [k2] at e2
  rw [e1, e2]
  have f1 : knot u (0 + 1) = knot u (p + 1) := hc.low _ (by omega) (by omega)
  have f2 : knot u (n - 1 - 1 + (p + 1) + 1) = knot u n := hc.high _ (by omega) (by omega)
  have g1 : n - 1 - 1 + 1 = n - 1 := by omega
  have g2 : n - 1 - 1 = n - 2 := by omega
  have a1 := hc.first
  have a2 := hc.last
  constructor
  · unfold hodoAt
    have g0 : 0 + (p + 1) + 1 = p + 2 := by omega
    rw [f1, g0, if_pos (by simpa using a1), smul_smul]
    congr 1
    push_cast
    rw [div_eq_mul_inv, mul_comm]
  · unfold hodoAt
    rw [f2, g1, if_pos (by simpa using a2), smul_smul, g2]
    congr 1
    push_cast
    rw [div_eq_mul_inv, mul_comm]

end BSplinePatch

open BSplinePatch

theorem axis_of {c : BSpline K V} {p : ℕ} (h : WellFormed c p) :
    ∃ s, Axis c.knots p s c.ctrl.length p ∧
      c = BSpline.mk (arr c.ctrl.length fun i => c.ctrl.getD i 0) c.knots c.periodic (staticDeg s) := by
  have e : c.ctrl = arr c.ctrl.length fun i => c.ctrl.getD i 0 := eq_arr c.ctrl 0
  rcases h.sdeg with hs | hs
  · refine ⟨-1, ⟨rfl, h.len, Or.inl (by decide), h.ctrl, h.sorted, h.dom⟩, ?_⟩
    have hd : staticDeg (-1) = c.sdeg := by rw [hs]; rfl
    rw [← e, hd]
  · refine ⟨p, ⟨rfl, h.len, Or.inr rfl, h.ctrl, h.sorted, h.dom⟩, ?_⟩
    have hd : staticDeg (p : ℤ) = c.sdeg := by rw [hs]; simp [staticDeg]
    rw [← e, hd]

end NS
