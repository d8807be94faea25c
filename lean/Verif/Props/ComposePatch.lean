import Verif.Props.RationalPatch
import Verif.Props.Unique

/-!
# C109: editing operations of patches compose
-/

set_option linter.unusedSectionVars false

namespace NS.Props

open Outcome Spec Finset BezierPatch

section General

variable {K V : Type} [Field K] [LinearOrder K] [IsStrictOrderedRing K] [FloorRing K]
  [AddCommGroup V] [Module K V]

theorem PieceOk.trans {p q r : BezierPatch V} (h : PieceOk p q) (h' : PieceOk q r) : PieceOk p r :=
  ⟨h'.1, h'.2.1.trans h.2.1, h'.2.2.1.trans h.2.2.1, h'.2.2.2⟩

/-- Pieces with the same points are the same objects. -/
theorem piece_ext {p A B : BezierPatch V} (hA : PieceOk p A) (hB : PieceOk p B)
    (h : ∀ s t : K, A.evaluate s t = B.evaluate s t) : A = B := by
  have hg := C91_bezier_patch (K := K) hA.1 hB.1 (hA.2.1.trans hB.2.1.symm) (hA.2.2.1.trans hB.2.2.1.symm)
    fun u v _ _ _ _ => h u v
  obtain ⟨-, a1, a2, ⟨a3, a4⟩, a5, a6⟩ := hA
  obtain ⟨-, b1, b2, ⟨b3, b4⟩, b5, b6⟩ := hB
  obtain ⟨g, du, dv, pu, pv, su, sv⟩ := A
  obtain ⟨g', du', dv', pu', pv', su', sv'⟩ := B
  simp only at *
  subst a1 a2 a3 a4 a5 a6 b3 b4 b5 b6 hg
  rw [b1, b2]

/-- **C109** (splits of Bezier patches): splitting in `u` and each half in `v` gives the same four patches, control
point by control point, as splitting in `v` and each half in `u`, and they are what `split` returns. -/
theorem C109_split_order {eps : K} (he : 0 ≤ eps) {p : BezierPatch V} (h : p.init = ok ()) (hs : Static p) {u v : K}
    (u0 : 0 < u) (u1 : u < 1) (v0 : 0 < v) (v1 : v < 1) :
    ∃ L R B T A1 A2 A3 A4, p.splitU eps u = ok [L, R] ∧ L.splitV eps v = ok [A1, A2] ∧ R.splitV eps v = ok [A3, A4] ∧
      p.splitV eps v = ok [B, T] ∧ B.splitU eps u = ok [A1, A3] ∧ T.splitU eps u = ok [A2, A4] ∧
      p.split eps u v = ok [A1, A2, A3, A4] := by
  obtain ⟨L, R, e, oL, oR, H⟩ := C30_split_u_partial he h hs u0 u1
  obtain ⟨A1, A2, eL, o1, o2, HL⟩ := C30_split_v_partial he oL.1 oL.2.2.2.1 v0 v1
  obtain ⟨A3, A4, eR, o3, o4, HR⟩ := C30_split_v_partial he oR.1 oR.2.2.2.1 v0 v1
  obtain ⟨B, T, e', oB, oT, H'⟩ := C30_split_v_partial he h hs v0 v1
  obtain ⟨B1, B3, eB, q1, q3, HB⟩ := C30_split_u_partial he oB.1 oB.2.2.2.1 u0 u1
  obtain ⟨B2, B4, eT, q2, q4, HT⟩ := C30_split_u_partial he oT.1 oT.2.2.2.1 u0 u1
  rw [flat_piece oL] at HL
  rw [flat_piece oR] at HR
  rw [flat_piece oB] at HB
  rw [flat_piece oT] at HT
  obtain rfl : A1 = B1 := piece_ext (K := K) (oL.trans o1) (oB.trans q1) fun s t => by
    rw [(HL s t).1, (H _ _).1, (HB s t).1, (H' _ _).1]
  obtain rfl : A2 = B2 := piece_ext (K := K) (oL.trans o2) (oT.trans q2) fun s t => by
    rw [(HL s t).2, (H _ _).1, (HT s t).1, (H' _ _).2]
  obtain rfl : A3 = B3 := piece_ext (K := K) (oR.trans o3) (oB.trans q3) fun s t => by
    rw [(HR s t).1, (H _ _).2, (HB s t).2, (H' _ _).1]
  obtain rfl : A4 = B4 := piece_ext (K := K) (oR.trans o4) (oT.trans q4) fun s t => by
    rw [(HR s t).2, (H _ _).2, (HT s t).2, (H' _ _).2]
  refine ⟨L, R, B, T, A1, A2, A3, A4, e, eL, eR, e', eB, eT, ?_⟩
  unfold BezierPatch.split
  rw [isEndpoint_false u0 u1]
  simp only [Bool.false_and, Bool.false_eq_true, if_false]
  rw [isEndpoint_false v0 v1, e]
  simp only [Bool.false_eq_true, if_false, ok_bind, rd, List.getElem?_cons_zero, List.getElem?_cons_succ, eL, eR]
  rfl

example := C109_split_order (eps := (1 / 1000 : ℚ)) (by norm_num) (p := exPatch) (by decide +kernel) ⟨rfl, rfl⟩
  (u := 1 / 3) (v := 1 / 4) (by norm_num) (by norm_num) (by norm_num) (by norm_num)

/-- **C109** (three strips): splitting at `s` and the first part again, or at `r` and the second part again, gives
the same three patches. -/
theorem C109_split_u_order {eps : K} (he : 0 ≤ eps) {p : BezierPatch V} (h : p.init = ok ()) (hs : Static p) {r s : K}
    (h0 : 0 < r) (h1 : r < s) (h2 : s < 1) :
    ∃ A B C L R, p.splitU eps s = ok [L, C] ∧ L.splitU eps (r / s) = ok [A, B] ∧
      p.splitU eps r = ok [A, R] ∧ R.splitU eps ((s - r) / (1 - r)) = ok [B, C] := by
  have hs0 : 0 < s := h0.trans h1
  have hr : 0 < 1 - r := by linarith
  have w0 : 0 < (s - r) / (1 - r) := div_pos (by linarith) hr
  have w1 : (s - r) / (1 - r) < 1 := (div_lt_one hr).2 (by linarith)
  obtain ⟨L, C, e1, oL, oC, H1⟩ := C30_split_u_partial he h hs hs0 h2
  obtain ⟨A, B, e2, oA, oB, H2⟩ := C30_split_u_partial he oL.1 oL.2.2.2.1 (div_pos h0 hs0) ((div_lt_one hs0).2 h1)
  obtain ⟨A', R, e3, oA', oR, H3⟩ := C30_split_u_partial he h hs h0 (h1.trans h2)
  obtain ⟨B', C', e4, oB', oC', H4⟩ := C30_split_u_partial he oR.1 oR.2.2.2.1 w0 w1
  rw [flat_piece oL] at H2
  rw [flat_piece oR] at H4
  obtain rfl : A = A' := piece_ext (K := K) (oL.trans oA) oA' fun x t => by
    rw [(H2 x t).1, (H1 _ _).1, (H3 _ _).1]; congr 1; field_simp
  obtain rfl : B = B' := piece_ext (K := K) (oL.trans oB) (oR.trans oB') fun x t => by
    rw [(H2 x t).2, (H1 _ _).1, (H4 x t).1, (H3 _ _).2]; congr 1; field_simp
  obtain rfl : C = C' := piece_ext (K := K) oC (oR.trans oC') fun x t => by
    rw [(H1 x t).2, (H4 x t).2, (H3 _ _).2]; congr 1; field_simp; ring
  exact ⟨A, B, C, L, R, e1, e2, e3, e4⟩

example := C109_split_u_order (eps := (1 / 1000 : ℚ)) (by norm_num) (p := exPatch) (by decide +kernel) ⟨rfl, rfl⟩
  (r := 1 / 3) (s := 3 / 4) (by norm_num) (by norm_num) (by norm_num)

/-- **C109** (three strips): the same for `split_v`. -/
theorem C109_split_v_order {eps : K} (he : 0 ≤ eps) {p : BezierPatch V} (h : p.init = ok ()) (hs : Static p) {r s : K}
    (h0 : 0 < r) (h1 : r < s) (h2 : s < 1) :
    ∃ A B C L R, p.splitV eps s = ok [L, C] ∧ L.splitV eps (r / s) = ok [A, B] ∧
      p.splitV eps r = ok [A, R] ∧ R.splitV eps ((s - r) / (1 - r)) = ok [B, C] := by
  have hs0 : 0 < s := h0.trans h1
  have hr : 0 < 1 - r := by linarith
  have w0 : 0 < (s - r) / (1 - r) := div_pos (by linarith) hr
  have w1 : (s - r) / (1 - r) < 1 := (div_lt_one hr).2 (by linarith)
  obtain ⟨L, C, e1, oL, oC, H1⟩ := C30_split_v_partial he h hs hs0 h2
  obtain ⟨A, B, e2, oA, oB, H2⟩ := C30_split_v_partial he oL.1 oL.2.2.2.1 (div_pos h0 hs0) ((div_lt_one hs0).2 h1)
  obtain ⟨A', R, e3, oA', oR, H3⟩ := C30_split_v_partial he h hs h0 (h1.trans h2)
  obtain ⟨B', C', e4, oB', oC', H4⟩ := C30_split_v_partial he oR.1 oR.2.2.2.1 w0 w1
  rw [flat_piece oL] at H2
  rw [flat_piece oR] at H4
  obtain rfl : A = A' := piece_ext (K := K) (oL.trans oA) oA' fun x t => by
    rw [(H2 x t).1, (H1 _ _).1, (H3 _ _).1]; congr 1; field_simp
  obtain rfl : B = B' := piece_ext (K := K) (oL.trans oB) (oR.trans oB') fun x t => by
    rw [(H2 x t).2, (H1 _ _).1, (H4 x t).1, (H3 _ _).2]; congr 1; field_simp
  obtain rfl : C = C' := piece_ext (K := K) oC (oR.trans oC') fun x t => by
    rw [(H1 x t).2, (H4 x t).2, (H3 _ _).2]; congr 1; field_simp; ring
  exact ⟨A, B, C, L, R, e1, e2, e3, e4⟩

example := C109_split_v_order (eps := (1 / 1000 : ℚ)) (by norm_num) (p := { exPatch with perU := true })
  (by decide +kernel) ⟨rfl, rfl⟩ (r := 1 / 3) (s := 3 / 4) (by norm_num) (by norm_num) (by norm_num)

/-- **C109** (derivative patches): the derivative patch in `u` of that in `v` is the derivative patch in `v` of that in
`u`, and both are the mixed derivative patch, up to the periodic flags, which only the latter keeps. -/
theorem C109_derivative_patches {p : BezierPatch V} (h : p.init = ok ()) :
    ∃ a b c d, p.duPatch K = ok a ∧ a.dvPatch K = ok b ∧ p.dvPatch K = ok c ∧ c.duPatch K = ok b ∧
      p.duvPatch K = ok d ∧ d.grid = b.grid ∧ d.degU = b.degU ∧ d.degV = b.degV := by
  obtain ⟨m, n, hw⟩ := (init_iff p).1 h
  have z0 : WellFormed ({ grid := [0], degU := 0, degV := 0 } : BezierPatch V) 0 0 := ⟨rfl, rfl, rfl⟩
  have zu : ∀ {q : BezierPatch V} {n : ℕ}, q.WellFormed 0 n → q.duPatch K = ok { grid := [0], degU := 0, degV := 0 } := by
    intro q n hq
    unfold BezierPatch.duPatch
    rw [hq.degreeU, ok_bind, hq.degreeV, ok_bind, if_pos rfl, zeroPatch_eq]
  have zv : ∀ {q : BezierPatch V} {m : ℕ}, q.WellFormed m 0 → q.dvPatch K = ok { grid := [0], degU := 0, degV := 0 } := by
    intro q n hq
    unfold BezierPatch.dvPatch
    rw [hq.degreeU, ok_bind, hq.degreeV, ok_bind, if_pos rfl, zeroPatch_eq]
  have zuv : m = 0 ∨ n = 0 → p.duvPatch K = ok { grid := [0], degU := 0, degV := 0 } := by
    intro hz
    unfold BezierPatch.duvPatch
    rw [hw.degreeU, ok_bind, hw.degreeV, ok_bind, if_pos hz, zeroPatch_eq]
  rcases m with _ | m
  · rcases n with _ | n
    · exact ⟨_, _, _, _, zu hw, zv z0, zv hw, zu z0, zuv (Or.inl rfl), rfl, rfl, rfl⟩
    · exact ⟨_, _, _, _, zu hw, zv z0, hw.dvPatch, zu ⟨rfl, rfl, by simp⟩, zuv (Or.inl rfl), rfl, rfl, rfl⟩
  · rcases n with _ | n
    · exact ⟨_, _, _, _, hw.duPatch, zv ⟨rfl, rfl, by simp⟩, zv hw, zu z0, zuv (Or.inr rfl), rfl, rfl, rfl⟩
    · have pg : ∀ (a b : ℕ) (x y : ℤ) (Q : ℕ → ℕ → V) {i j : ℕ}, i < a + 1 → j < b + 1 →
          ({ grid := gridOf (a + 1) (b + 1) Q, degU := x, degV := y } : BezierPatch V).pts b i j = Q i j :=
        fun a b x y Q i j hi hj => pts_gridOf Q _ rfl hi hj
      have wa : WellFormed ({ grid := gridOf (m + 1) (n + 1 + 1) (fun i j => ((m + 1 : ℕ) : K) •
          (p.pts (n + 1) (i + 1) j - p.pts (n + 1) i j)), degU := m, degV := (n + 1 : ℕ) } : BezierPatch V)
          m (n + 1) := ⟨rfl, rfl, by simp⟩
      have wc : WellFormed ({ grid := gridOf (m + 1 + 1) (n + 1) (fun i j => ((n + 1 : ℕ) : K) •
          (p.pts (n + 1) i (j + 1) - p.pts (n + 1) i j)), degU := (m + 1 : ℕ), degV := n } : BezierPatch V)
          (m + 1) n := ⟨rfl, rfl, by simp⟩
      refine ⟨_, _, _, _, hw.duPatch, wa.dvPatch, hw.dvPatch, ?_, hw.duvPatch, ?_, rfl, rfl⟩
      · rw [wc.duPatch]
        congr 2
        refine gridOf_congr fun i hi j hj => ?_
        rw [pg _ _ _ _ _ (by omega) (by omega), pg _ _ _ _ _ (by omega) (by omega),
          pg _ _ _ _ _ (by omega) (by omega), pg _ _ _ _ _ (by omega) (by omega)]
        simp only [← smul_sub, smul_smul]
        rw [mul_comm]
        congr 1
        abel
      · dsimp only
        refine gridOf_congr fun i hi j hj => ?_
        rw [pg _ _ _ _ _ (by omega) (by omega), pg _ _ _ _ _ (by omega) (by omega)]

example := C109_derivative_patches (K := ℚ) (p := { exPatch with perU := true }) (by decide +kernel)

/-- **C109** (rational patches): the same for a rational patch with positive weights, weights included. -/
theorem C109_rational_split_order {eps : K} (he : 0 ≤ eps) {p : RationalBezierPatch K V} (h : p.init = ok p)
    (hs : Static p.base) (hw : ∀ x ∈ p.weights, 0 < x) {u v : K} (u0 : 0 < u) (u1 : u < 1) (v0 : 0 < v) (v1 : v < 1) :
    ∃ L R B T A1 A2 A3 A4, p.splitU eps u = ok [L, R] ∧ L.splitV eps v = ok [A1, A2] ∧ R.splitV eps v = ok [A3, A4] ∧
      p.splitV eps v = ok [B, T] ∧ B.splitU eps u = ok [A1, A3] ∧ T.splitU eps u = ok [A2, A4] ∧
      p.split eps u v = ok [A1, A2, A3, A4] := by
  have ih := init_hom h
  have sh := static_hom h hs
  obtain ⟨L, R, B, T, A1, A2, A3, A4, e1, e2, e3, e4, e5, e6, e7⟩ := C109_split_order he ih sh u0 u1 v0 v1
  have pos := hom_grid_pos h hw
  obtain ⟨L', R', f1, oL, oR, -⟩ := C30_split_u_partial he ih sh u0 u1
  rw [e1] at f1
  obtain ⟨rfl, rfl⟩ : L = L' ∧ R = R' := by simpa using ok.inj f1
  obtain ⟨B', T', f2, oB, oT, -⟩ := C30_split_v_partial he ih sh v0 v1
  rw [e4] at f2
  obtain ⟨rfl, rfl⟩ : B = B' ∧ T = T' := by simpa using ok.inj f2
  obtain ⟨A1', A2', f3, o1, o2, -⟩ := C30_split_v_partial he oL.1 oL.2.2.2.1 v0 v1
  rw [e2] at f3
  obtain ⟨rfl, rfl⟩ : A1 = A1' ∧ A2 = A2' := by simpa using ok.inj f3
  obtain ⟨A3', A4', f4, o3, o4, -⟩ := C30_split_v_partial he oR.1 oR.2.2.2.1 v0 v1
  rw [e3] at f4
  obtain ⟨rfl, rfl⟩ : A3 = A3' ∧ A4 = A4' := by simpa using ok.inj f4
  obtain ⟨hL, hR⟩ := splitU_hull ih he u0 u1 e1
  obtain ⟨hB, hT⟩ := splitV_hull ih he v0 v1 e4
  obtain ⟨h1, h2⟩ := splitV_hull oL.1 he v0 v1 e2
  obtain ⟨h3, h4⟩ := splitV_hull oR.1 he v0 v1 e3
  have pL := hull_pos hL pos
  have pR := hull_pos hR pos
  have mk : ∀ {H : BezierPatch (V × K)}, PieceOk p.hom H → (∀ q ∈ H.grid, 0 < q.2) →
      ∃ A, RationalBezierPatch.ofHomogeneous H = ok A ∧ A.hom = H := by
    intro H oH pH
    obtain ⟨A, e, -, eh⟩ := RationalBezierPatch.ofHomogeneous_eq oH.1 oH.2.2.2.1 (fun q hq => (pH q hq).ne')
    exact ⟨A, e, eh⟩
  obtain ⟨rL, gL, mL⟩ := mk oL pL
  obtain ⟨rR, gR, mR⟩ := mk oR pR
  obtain ⟨rB, gB, mB⟩ := mk oB (hull_pos hB pos)
  obtain ⟨rT, gT, mT⟩ := mk oT (hull_pos hT pos)
  obtain ⟨r1, g1, -⟩ := mk (oL.trans o1) (hull_pos h1 pL)
  obtain ⟨r2, g2, -⟩ := mk (oL.trans o2) (hull_pos h2 pL)
  obtain ⟨r3, g3, -⟩ := mk (oR.trans o3) (hull_pos h3 pR)
  obtain ⟨r4, g4, -⟩ := mk (oR.trans o4) (hull_pos h4 pR)
  refine ⟨rL, rR, rB, rT, r1, r2, r3, r4, ?_, ?_, ?_, ?_, ?_, ?_, ?_⟩ <;>
    simp only [RationalBezierPatch.splitU, RationalBezierPatch.splitV, RationalBezierPatch.split, mL, mR, mB, mT, e1,
      e2, e3, e4, e5, e6, e7, ok_bind, RationalBezierPatch.ofParts, gL, gR, gB, gT, g1, g2, g3, g4, pure_eq]

example := C109_rational_split_order (eps := (1 / 1000 : ℚ)) (by norm_num) (p := exRatPatch) (by decide +kernel)
  ⟨rfl, rfl⟩ (by decide +kernel) (u := 1 / 3) (v := 1 / 4) (by norm_num) (by norm_num) (by norm_num) (by norm_num)

end General
end NS.Props
