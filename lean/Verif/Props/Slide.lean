import Verif.Props.Corner
/-
C70: a corner that slides within the plane of a face.
-/
set_option linter.unusedSectionVars false
set_option linter.unusedSimpArgs false
namespace Fluffy.Props
open XReal Step
variable {cs : List (Vec3 ℝ)} {n : Vec3 ℝ}

/-- The point is above, below or on the edge at the time, and is not moving along it. -/
structure CrossesEdge (p q m : Vec3 ℝ) (e : Vec3 ℝ × Vec3 ℝ) (t : ℝ) : Prop where
  start : 0 ≤ t
  stop : t ≤ 1
  on : (along p (q - p) t - e.1).dot (m.cross (e.2 - e.1)) = 0
  after : 0 ≤ (along p (q - p) t - e.1).dot (e.2 - e.1)
  before : (along p (q - p) t - e.1).dot (e.2 - e.1) ≤ (e.2 - e.1).dot (e.2 - e.1)
  cross : (q - p).dot (m.cross (e.2 - e.1)) ≠ 0

/-- The loop over the edges keeps the first time at which an edge is crossed. -/
theorem skim_first {p q m : Vec3 ℝ} : ∀ (l : List (Vec3 ℝ × Vec3 ℝ)) (T : ℝ) (P : Vec3 XReal), (∀ e ∈ l, m.cross (e.2 - e.1) ≠ .o) →
    ∃ u, (alongPlaneLoop p.f q.f m.f (l.map (fun e => (e.1.f, e.2.f))) (fin T) P).1 = fin u ∧ u ≤ T ∧ ∀ e ∈ l, ∀ t, CrossesEdge p q m e t → u ≤ t
  | [], T, P, _ => ⟨T, rfl, le_refl _, fun e he => by cases he⟩
  | e :: l, T, P, hl => by
    have hne := hl e (by simp)
    have ih := fun T P => skim_first l T P (fun e he => hl e (by simp [he])) (p := p) (q := q)
    simp only [List.map_cons, alongPlaneLoop, Vec3.f_sub, Vec3.f_cross, Vec3.f_normalize hne, Vec3.f_dot, fin_sub, fin_neg]
    generalize hx : (p - e.1).dot ((m.cross (e.2 - e.1)).scale (m.cross (e.2 - e.1)).len⁻¹) = x
    generalize hy : -((q - e.1).dot ((m.cross (e.2 - e.1)).scale (m.cross (e.2 - e.1)).len⁻¹) - x) = y
    have hlen : (m.cross (e.2 - e.1)).len⁻¹ ≠ 0 := inv_ne_zero (Vec3.len_pos hne).ne'
    have hs : ∀ u : Vec3 ℝ, u.dot ((m.cross (e.2 - e.1)).scale (m.cross (e.2 - e.1)).len⁻¹) = u.dot (m.cross (e.2 - e.1)) * (m.cross (e.2 - e.1)).len⁻¹ := by
      intro u; generalize m.cross (e.2 - e.1) = w; generalize w.len⁻¹ = k; simp [Vec3.dot_def]; ring
    have hy2 : y = -((q - p).dot (m.cross (e.2 - e.1)) * (m.cross (e.2 - e.1)).len⁻¹) := by
      rw [← hy, ← hx, ← hs]; generalize (m.cross (e.2 - e.1)).scale (m.cross (e.2 - e.1)).len⁻¹ = w; simp [Vec3.dot_def]; ring
    have hcr : ∀ t, CrossesEdge p q m e t → y ≠ 0 ∧ x = y * t := by
      intro t h
      refine ⟨?_, ?_⟩
      · rw [hy2]; exact neg_ne_zero.mpr (mul_ne_zero h.cross hlen)
      · have := h.on
        rw [along_sub_dot] at this
        have e1 : (p - e.1).dot (m.cross (e.2 - e.1)) = -((q - p).dot (m.cross (e.2 - e.1)) * t) := by linarith
        rw [← hx, hs, e1, hy2]; ring
    have lift : ∀ {u : ℝ}, (∀ t, CrossesEdge p q m e t → u ≤ t) → (∀ e ∈ l, ∀ t, CrossesEdge p q m e t → u ≤ t) → ∀ e' ∈ e :: l, ∀ t, CrossesEdge p q m e' t → u ≤ t := by
      intro u h1 h2 e' he'
      rcases List.mem_cons.mp he' with rfl | he'
      · exact h1
      · exact h2 e' he'
    rcases time_cases x y with ⟨h, hno⟩ | ⟨h, hy0, t, ht, t0, t1, hxy⟩
    · rw [if_pos h]
      obtain ⟨u, h1, h2, h3⟩ := ih T P
      exact ⟨u, h1, h2, lift (fun t hc => absurd (hcr t hc).2 (hno t hc.start hc.stop (hcr t hc).1)) h3⟩
    · rw [if_neg (by rw [h]; exact Bool.false_ne_true), ht]
      have same : ∀ t', CrossesEdge p q m e t' → t' = t := fun t' hc => mul_left_cancel₀ hy0 ((hcr t' hc).2.symm.trans hxy)
      have hpos : p.f + (q - p).f.scale (fin t) = (along p (q - p) t).f := by rw [Vec3.f_scale, Vec3.f_add]; rfl
      rw [hpos]
      simp only [Vec3.f_sub, Vec3.f_dot, zero_eq, fin_lt, Bool.or_eq_true, decide_eq_true_eq]
      split
      · rename_i hal
        obtain ⟨u, h1, h2, h3⟩ := ih T P
        refine ⟨u, h1, h2, lift (fun t' hc => ?_) h3⟩
        have := same t' hc
        subst this
        rcases hal with hal | hal
        · exact absurd hc.after (not_le.mpr hal)
        · exact absurd hc.before (not_le.mpr hal)
      · split
        · rename_i hlt
          obtain ⟨u, h1, h2, h3⟩ := ih t (along p (q - p) t).f
          exact ⟨u, h1, h2.trans hlt.le, lift (fun t' hc => (same t' hc).symm ▸ h2) h3⟩
        · rename_i hlt
          obtain ⟨u, h1, h2, h3⟩ := ih T P
          exact ⟨u, h1, h2, lift (fun t' hc => (same t' hc).symm ▸ h2.trans (not_lt.mp hlt)) h3⟩
theorem edge_across (hc : ConvexFace cs n) : ∀ e ∈ cyclicPairs cs, (-n).cross (e.2 - e.1) ≠ .o ∧ e.1 ∈ cs ∧ e.2 ∈ cs ∧ e.2 - e.1 ≠ .o := by
  intro e he
  have hf := mem_cyclicPairs.mp (show (e.1, e.2) ∈ _ from he)
  have hm := follows_mem hf
  have hd0 : e.2 - e.1 ≠ .o := by
    obtain ⟨c, hcs, hc1, hc2⟩ : ∃ c ∈ cs, c ≠ e.1 ∧ c ≠ e.2 := by
      by_contra hcon
      have hsub : cs ⊆ [e.1, e.2] := fun c hcs => by
        by_contra hx
        simp at hx
        exact hcon ⟨c, hcs, hx.1, hx.2⟩
      have := (List.Nodup.subperm hc.distinct hsub).length_le
      have := hc.three
      simp at *; omega
    intro h0
    have := hc.turn e.1 e.2 hf c hcs hc1 hc2
    unfold side at this
    rw [h0] at this
    simp [Vec3.dot_def] at this
  refine ⟨fun h0 => hd0 ?_, hm.1, hm.2, hd0⟩
  have lag : ∀ u v : Vec3 ℝ, (u.cross v).dot (u.cross v) + u.dot v * u.dot v = u.dot u * v.dot v := fun u v => by simp [Vec3.dot_def]; ring
  have := lag (-n) (e.2 - e.1)
  have e1 : (-n).dot (e.2 - e.1) = -(e.2 - e.1).dot n := by simp [Vec3.dot_def]; ring
  have e2 : (-n).dot (-n) = n.dot n := by simp [Vec3.dot_def]
  rw [h0, e1, e2, hc.flat e.1 hm.1 e.2 hm.2, hc.unit] at this
  simp [Vec3.dot_def] at this
  refine (Vec3.dot_self_eq_zero _).mp ?_
  simp [Vec3.dot_def]; linarith

/-- **C70**, one corner against one face, for a corner that stays within the cut-off of the face's plane: if it reaches an edge of the face and is not moving along
that edge, a contact is reported, at that time or before, where the corner is then. -/
theorem C70_slide_complete (hc : ConvexFace cs n) (hk : HasCorner cs n) {a p q : Vec3 ℝ} (ha : cs[0]? = some a) (hs : Skims p q a n) {t k : ℝ} (t0 : 0 ≤ t) (t1 : t ≤ 1)
    {b c : Vec3 ℝ} (hf : Follows cs b c) (k0 : 0 ≤ k) (k1 : k ≤ 1) (hon : along p (q - p) t = b + (c - b).scale k) (hx : (q - p).dot (n.cross (c - b)) ≠ 0) :
    ∃ u, 0 ≤ u ∧ u ≤ t ∧ collidePointPolygon p.f q.f (cs.map Vec3.f) = .ok (some ⟨Range.single (fin u), (along p (q - p) u).f, (-n).f⟩) := by
  have he : ((b, c) : Vec3 ℝ × Vec3 ℝ) ∈ cyclicPairs cs := mem_cyclicPairs.mpr hf
  have hcr : CrossesEdge p q (-n) (b, c) t := by
    have e1 : along p (q - p) t - b = (c - b).scale k := by rw [hon]; ext <;> simp
    refine ⟨t0, t1, ?_, ?_, ?_, ?_⟩
    · show (along p (q - p) t - b).dot ((-n).cross (c - b)) = 0
      rw [e1]; simp [Vec3.dot_def]; ring
    · show 0 ≤ (along p (q - p) t - b).dot (c - b)
      rw [e1, show ((c - b).scale k).dot (c - b) = k * (c - b).dot (c - b) by simp [Vec3.dot_def]; ring]
      exact mul_nonneg k0 (Vec3.dot_self_nonneg _)
    · show (along p (q - p) t - b).dot (c - b) ≤ (c - b).dot (c - b)
      rw [e1, show ((c - b).scale k).dot (c - b) = k * (c - b).dot (c - b) by simp [Vec3.dot_def]; ring]
      exact mul_le_of_le_one_left (Vec3.dot_self_nonneg _) k1
    · show (q - p).dot ((-n).cross (c - b)) ≠ 0
      rw [show (q - p).dot ((-n).cross (c - b)) = -(q - p).dot (n.cross (c - b)) by simp [Vec3.dot_def]; ring]
      exact neg_ne_zero.mpr hx
  have hl := fun e he => (edge_across hc e he).1
  obtain ⟨u, h1, -, h2⟩ := skim_first (p := p) (q := q) (m := -n) (cyclicPairs cs) 2 Vec3.zeros hl
  have hu := h2 _ he t hcr
  have hN := (polygonNormal_eq hc).2 hk
  unfold collidePointPolygon
  rw [hN, Res.ok_bind, first_corner ha, Res.ok_bind, f_onPlane, f_onPlane, if_pos (by simp [hs.1, hs.2]), cyclicPairs_map]
  have h2 : (two : XReal) = fin 2 := two_eq
  rw [h2]
  rcases skim_loop (p := p) (q := q) (m := -n) (cyclicPairs cs) (fin 2) Vec3.zeros hl with h' | ⟨-, e, -, w, w0, w1, h', -⟩
  · rw [h'] at h1
    have := (fin_inj).mp h1
    linarith
  · rw [h'] at h1
    have := (fin_inj).mp h1
    subst this
    refine ⟨w, w0, hu, ?_⟩
    rw [h', if_pos (by simp [one_eq, w1])]

/-- A point sliding over the triangle from (-1, 0, 1/4) to (1, 0, 1/4) is reported where it meets the edge at `x = 0`, half way. -/
example : ∃ u, 0 ≤ u ∧ u ≤ 1 / 2 ∧ collidePointPolygon (⟨-1, 0, 1 / 4⟩ : Vec3 ℝ).f (⟨1, 0, 1 / 4⟩ : Vec3 ℝ).f (([⟨0, 0, 0⟩, ⟨0, 0, 1⟩, ⟨1, 0, 0⟩] : List (Vec3 ℝ)).map Vec3.f) =
    .ok (some ⟨Range.single (fin u), (along (⟨-1, 0, 1 / 4⟩ : Vec3 ℝ) (⟨1, 0, 1 / 4⟩ - ⟨-1, 0, 1 / 4⟩) u).f, (-(⟨0, 1, 0⟩ : Vec3 ℝ)).f⟩) := by
  have hc : ConvexFace [⟨0, 0, 0⟩, ⟨0, 0, 1⟩, ⟨1, 0, 0⟩] (⟨0, 1, 0⟩ : Vec3 ℝ) :=
    .triangle (by norm_num [Vec3.dot_def]) (by simp [Vec3.dot_def]) (by simp [Vec3.dot_def]) (by unfold side; norm_num [Vec3.dot_def])
  have hk : HasCorner [⟨0, 0, 0⟩, ⟨0, 0, 1⟩, ⟨1, 0, 0⟩] (⟨0, 1, 0⟩ : Vec3 ℝ) := by
    refine ⟨⟨0, 0, 0⟩, ⟨0, 0, 1⟩, ⟨1, 0, 0⟩, ?_, ?_, by unfold eps side; norm_num [Vec3.dot_def]⟩
    · rw [follows_triangle]; exact .inl ⟨rfl, rfl⟩
    · rw [follows_triangle]; exact .inr (.inl ⟨rfl, rfl⟩)
  refine C70_slide_complete hc hk (a := ⟨0, 0, 0⟩) rfl ?_ (t := 1 / 2) (k := 1 / 4) (by norm_num) (by norm_num) (b := ⟨0, 0, 0⟩) (c := ⟨0, 0, 1⟩) ?_ (by norm_num) (by norm_num) ?_ ?_
  · unfold Skims eps; constructor <;> norm_num [Vec3.dot_def]
  · rw [follows_triangle]; exact .inl ⟨rfl, rfl⟩
  · unfold along; ext <;> norm_num
  · norm_num [Vec3.dot_def]
end Fluffy.Props
