import Verif.Props.Polygon
/-
C63: collision detection between spheres and meshes of convex faces, over exact numbers.
-/
set_option linter.unusedSectionVars false
set_option linter.unusedSimpArgs false
namespace Fluffy.Props
open Fluffy XReal

/-! ### Specification -/

/-- The corner points of a face given by indices. -/
def Corners (vs : List (Vec3 ℝ)) (f : List Nat) (cs : List (Vec3 ℝ)) : Prop := List.Forall₂ (fun i p => vs[i]? = some p) f cs

/-- The moving ball and the moving mesh share a point at time `t`. -/
def BallMeetsMesh (r : ℝ) (c m : Vec3 ℝ) (vs : List (Vec3 ℝ)) (fs : List (List Nat)) (v : Vec3 ℝ) (t : ℝ) : Prop :=
  ∃ f ∈ fs, ∃ cs, Corners vs f cs ∧ BallMeetsFace r c m cs v t

/-- A mesh of convex faces with its edges and vertices. -/
structure ConvexMesh (vs : List (Vec3 ℝ)) (es : List (Nat × Nat)) (fs : List (List Nat)) : Prop where
  faces : ∀ f ∈ fs, ∃ cs n, Corners vs f cs ∧ ConvexFace cs n
  listed : ∀ f ∈ fs, ∀ i j, Follows f i j → (i, j) ∈ es ∨ (j, i) ∈ es
  sides : ∀ i j, (i, j) ∈ es → ∃ f ∈ fs, Follows f i j ∨ Follows f j i
  used : ∀ i < vs.length, ∃ f ∈ fs, i ∈ f

/-- The movement is clear of the cut-offs for the faces' planes, the edges and the vertices, and the centre does not start on a face. -/
structure ClearOf (r : ℝ) (c m : Vec3 ℝ) (vs : List (Vec3 ℝ)) (es : List (Nat × Nat)) (fs : List (List Nat)) (v : Vec3 ℝ) : Prop where
  planes : ∀ f ∈ fs, ∀ cs n, Corners vs f cs → ConvexFace cs n → CrispPlane m n v ∧ ¬ InFace cs c
  edges : ∀ i j a b, (i, j) ∈ es → vs[i]? = some a → vs[j]? = some b → SafeLine r c m a (b - a) v
  points : ∀ p ∈ vs, SafePoint r c m p v

/-! ### Faces and indices -/

theorem Corners.follows {vs : List (Vec3 ℝ)} {f : List Nat} {cs : List (Vec3 ℝ)} (h : Corners vs f cs) {a b : Vec3 ℝ} (hf : Follows cs a b) :
    ∃ i j, Follows f i j ∧ vs[i]? = some a ∧ vs[j]? = some b := by
  obtain ⟨k, hk, h1, h2⟩ := hf
  have hl := h.length_eq
  have get : ∀ (k : Nat) (p : Vec3 ℝ), cs[k]? = some p → ∃ i, f[k]? = some i ∧ vs[i]? = some p := by
    intro k p hp
    have hlt := (List.getElem?_eq_some_iff.mp hp).1
    have hlt' : k < f.length := by omega
    refine ⟨f[k], List.getElem?_eq_getElem hlt', ?_⟩
    have := List.Forall₂.get h hlt' hlt
    rw [← hp, List.getElem?_eq_getElem hlt]
    simpa using this
  obtain ⟨i, i1, i2⟩ := get _ _ h1
  obtain ⟨j, j1, j2⟩ := get _ _ h2
  exact ⟨i, j, ⟨k, by omega, i1, by rw [hl]; exact j1⟩, i2, j2⟩

theorem Corners.of_follows {vs : List (Vec3 ℝ)} {f : List Nat} {cs : List (Vec3 ℝ)} (h : Corners vs f cs) {i j : Nat} (hf : Follows f i j) :
    ∃ a b, Follows cs a b ∧ vs[i]? = some a ∧ vs[j]? = some b := by
  obtain ⟨k, hk, h1, h2⟩ := hf
  have hl := h.length_eq
  have get : ∀ k i : Nat, f[k]? = some i → ∃ p, cs[k]? = some p ∧ vs[i]? = some p := by
    intro k i hi
    obtain ⟨hlt, he⟩ := List.getElem?_eq_some_iff.mp hi
    have hlt' : k < cs.length := by omega
    refine ⟨cs[k], List.getElem?_eq_getElem hlt', ?_⟩
    have := List.Forall₂.get h hlt hlt'
    rw [← he]
    simpa using this
  obtain ⟨a, a1, a2⟩ := get _ _ h1
  obtain ⟨b, b1, b2⟩ := get _ _ h2
  exact ⟨a, b, ⟨k, by omega, a1, by rw [← hl]; exact b1⟩, a2, b2⟩

theorem Corners.unique {vs : List (Vec3 ℝ)} {f : List Nat} {cs ds : List (Vec3 ℝ)} (h : Corners vs f cs) (h' : Corners vs f ds) : cs = ds := by
  unfold Corners at h h'
  induction h generalizing ds with
  | nil => cases h'; rfl
  | cons h _ ih =>
    cases h' with
    | cons h1 h2 =>
      rw [h] at h1
      cases h1
      rw [ih h2]

theorem Corners.mem {vs : List (Vec3 ℝ)} {f : List Nat} {cs : List (Vec3 ℝ)} (h : Corners vs f cs) {i : Nat} (hi : i ∈ f) : ∃ p ∈ cs, vs[i]? = some p := by
  unfold Corners at h
  induction h with
  | nil => simp at hi
  | cons h1 _ ih =>
    rcases List.mem_cons.mp hi with rfl | hi
    · exact ⟨_, by simp, h1⟩
    · obtain ⟨p, hp, h⟩ := ih hi
      exact ⟨p, by simp [hp], h⟩

theorem Corners.f {vs : List (Vec3 ℝ)} {f : List Nat} {cs : List (Vec3 ℝ)} (h : Corners vs f cs) :
    List.Forall₂ (fun i p => (vs.map Vec3.f)[i]? = some p) f (cs.map Vec3.f) := by
  unfold Corners at h
  induction h with
  | nil => exact .nil
  | cons h1 _ ih => exact .cons (by simp [h1]) ih

theorem Corners.of_f {vs : List (Vec3 ℝ)} : ∀ {f : List Nat} {ps : List (Vec3 XReal)}, List.Forall₂ (fun i p => (vs.map Vec3.f)[i]? = some p) f ps →
    ∃ cs, ps = cs.map Vec3.f ∧ Corners vs f cs
  | _, _, .nil => ⟨[], rfl, .nil⟩
  | _, _, .cons h1 h2 => by
    obtain ⟨cs, rfl, h⟩ := Corners.of_f h2
    rw [List.getElem?_map, Option.map_eq_some_iff] at h1
    obtain ⟨p, hp, rfl⟩ := h1
    exact ⟨p :: cs, rfl, .cons hp h⟩

theorem ConvexFace.edge_ne {cs : List (Vec3 ℝ)} {n : Vec3 ℝ} (hc : ConvexFace cs n) {a b : Vec3 ℝ} (h : Follows cs a b) : a ≠ b := by
  obtain ⟨k, hk, h1, h2⟩ := h
  rintro rfl
  have h3 := hc.three
  have := (List.getElem?_inj hk hc.distinct).mp (h1.trans h2.symm)
  rcases Nat.lt_or_ge (k + 1) cs.length with hlt | hge
  · rw [Nat.mod_eq_of_lt hlt] at this; omega
  · have : k + 1 = cs.length := by omega
    rename_i he
    rw [this, Nat.mod_self] at he
    omega

theorem onSegment_swap {a b x : Vec3 ℝ} (h : OnSegment a b x) : OnSegment b a x := by
  obtain ⟨k, k0, k1, rfl⟩ := h
  exact ⟨1 - k, by linarith, by linarith, by ext <;> simp <;> ring⟩
theorem onSegment_moved {a b x : Vec3 ℝ} (h : OnSegment a b x) (v : Vec3 ℝ) (t : ℝ) : OnSegment (along a v t) (along b v t) (x + v.scale t) := by
  obtain ⟨k, k0, k1, rfl⟩ := h
  exact ⟨k, k0, k1, by unfold along; ext <;> simp <;> ring⟩
theorem onSegment_face {cs : List (Vec3 ℝ)} {a b x : Vec3 ℝ} (ha : a ∈ cs) (hb : b ∈ cs) (h : OnSegment a b x) : InFace cs x := by
  obtain ⟨k, k0, k1, rfl⟩ := h
  exact .between (.corner ha) (.corner hb) k0 k1

section
variable {r : ℝ} {c m v : Vec3 ℝ} {vs : List (Vec3 ℝ)} {es : List (Nat × Nat)} {fs : List (List Nat)}

/-- A ball that meets an edge of a face by some time is reported by then. -/
theorem mesh_edge (hr : 0 < r) (hm : ConvexMesh vs es fs) (hs : ClearOf r c m vs es fs v) {f : List Nat} (hf : f ∈ fs) {cs : List (Vec3 ℝ)} {n : Vec3 ℝ}
    (hcs : Corners vs f cs) (hc : ConvexFace cs n) {a b x : Vec3 ℝ} (hab : Follows cs a b) (hx : OnSegment a b x) {t : ℝ} (t0 : 0 ≤ t) (t1 : t ≤ 1)
    (hb : InBall (along c m t) r (x + v.scale t)) :
    ∃ D w, FeatureHit (fin r) c.f m.f (vs.map Vec3.f) es fs v.f D ∧ D.times.min = fin w ∧ w ≤ t := by
  obtain ⟨i, j, hij, hi, hj⟩ := hcs.follows hab
  have hne := hc.edge_ne hab
  have key : ∀ i j a b, (i, j) ∈ es → vs[i]? = some a → vs[j]? = some b → a ≠ b → OnSegment a b x →
      ∃ D w, FeatureHit (fin r) c.f m.f (vs.map Vec3.f) es fs v.f D ∧ D.times.min = fin w ∧ w ≤ t := by
    intro i j a b he hi hj hne hx
    have mi := List.mem_of_getElem? hi
    have mj := List.mem_of_getElem? hj
    have hd : b - a ≠ .o := by
      intro h0
      apply hne
      have h1 := congrArg Vec3.x h0; have h2 := congrArg Vec3.y h0; have h3 := congrArg Vec3.z h0
      simp at h1 h2 h3
      ext <;> linarith
    obtain ⟨D, w, hw, hwt, hD⟩ := edge_by hr hd (hs.edges i j a b he hi hj) (hs.points a mi) (hs.points b mj) t0 t1 ⟨_, onSegment_moved hx v t, hb⟩
    refine ⟨D, w, ?_, hw, hwt⟩
    rcases hD with hD | hD | hD
    · exact .edge i j a.f b.f he (by simp [hi]) (by simp [hj]) hD
    · exact .vertex a.f (List.mem_map.mpr ⟨a, mi, rfl⟩) (by rw [zero_eq]; exact hD)
    · exact .vertex b.f (List.mem_map.mpr ⟨b, mj, rfl⟩) (by rw [zero_eq]; exact hD)
  rcases hm.listed f hf i j hij with he | he
  · exact key i j a b he hi hj hne hx
  · exact key j i b a he hj hi hne.symm (onSegment_swap hx)

theorem nearPlane_between {p n : Vec3 ℝ} {s t k : ℝ} (h1 : NearPlane r c m p n v s) (h2 : NearPlane r c m p n v t) (k0 : 0 ≤ k) (k1 : k ≤ 1) :
    NearPlane r c m p n v (s + (t - s) * k) := by
  unfold NearPlane at *
  rw [plane_dot, abs_le] at *
  constructor
  · nlinarith [mul_nonneg (sub_nonneg.mpr h1.1) (sub_nonneg.mpr k1), mul_nonneg (sub_nonneg.mpr h2.1) k0]
  · nlinarith [mul_nonneg (sub_nonneg.mpr h1.2) (sub_nonneg.mpr k1), mul_nonneg (sub_nonneg.mpr h2.2) k0]

/-- A ball that meets a face by some time is reported by then. -/
theorem mesh_face (hr : 0 < r) (hm : ConvexMesh vs es fs) (hs : ClearOf r c m vs es fs v) {t : ℝ} (t0 : 0 ≤ t) (t1 : t ≤ 1) (h : BallMeetsMesh r c m vs fs v t) :
    ∃ D w, FeatureHit (fin r) c.f m.f (vs.map Vec3.f) es fs v.f D ∧ D.times.min = fin w ∧ w ≤ t := by
  obtain ⟨f, hf, cs, hcs, hmeet⟩ := h
  obtain ⟨cs', n, hcs', hc⟩ := hm.faces f hf
  cases hcs.unique hcs'
  obtain ⟨hcr, hstart⟩ := hs.planes f hf cs n hcs hc
  obtain ⟨p, hp⟩ : ∃ p, p ∈ cs := by
    have := hc.three
    match cs, this with
    | a :: _, _ => exact ⟨a, by simp⟩
  have hnt := nearPlane_of_meets hr.le hc hp hmeet
  -- the foot of the perpendicular, seen from the face
  set g : ℝ → Vec3 ℝ := fun t => plumb (along p v t) n (along c m t) - v.scale t with hg
  have hflat : ∀ t, (g t - p).dot n = 0 := by
    intro t
    have := plumb_flat (p := along p v t) (x := along c m t) hc.unit
    have e : (g t - p).dot n = (plumb (along p v t) n (along c m t) - along p v t).dot n := by
      simp only [hg]
      generalize plumb (along p v t) n (along c m t) = q; simp [along, Vec3.dot_def]; ring
    rw [e, this]
  have hlin : ∀ s t k : ℝ, g (s + (t - s) * k) = g s + (g t - g s).scale k := by
    intro s t k
    simp only [hg, plumb, along, Vec3.dot_def]
    ext <;> simp <;> ring
  have hdist : ∀ t, NearPlane r c m p n v t → InBall (along c m t) r (g t + v.scale t) := by
    intro t h
    have e : g t + v.scale t = plumb (along p v t) n (along c m t) := by simp only [hg]; ext <;> simp
    unfold InBall
    rw [e, plumb_len hc.unit]; exact h
  by_cases hin : InFace cs (g t)
  · rcases polygon_first (c := c) hr.le hc hp hcr with ⟨-, hno⟩ | ⟨T, hT, h⟩
    · exact absurd hnt (hno t t0 t1)
    have hTt := hT.2 t t0 t1 hnt
    by_cases hin' : InFace cs (g T)
    · rcases h with ⟨-, h | h⟩ | ⟨C, hC, hCT, -⟩
      · -- the centre would be on the face from the start
        exfalso
        have hT0 : T = 0 := by
          have hcont : ∀ u, 0 ≤ u → u ≤ T → NearPlane r c m p n v u → u = T := fun u u0 uT hu => le_antisymm uT (hT.2 u u0 (le_trans uT hT.1.2.1) hu)
          by_contra hT0
          have hTpos : 0 < T := lt_of_le_of_ne hT.1.1 (Ne.symm hT0)
          have hD := plane_dot c m p n v T
          rw [h] at hD
          set w := (m - v).dot n
          set d := (c - p).dot n
          obtain ⟨e, e0, eT, he⟩ : ∃ e, 0 < e ∧ e ≤ T ∧ |w * e| ≤ r := by
            by_cases hw : w = 0
            · exact ⟨T, hTpos, le_refl _, by rw [hw, zero_mul, abs_zero]; exact hr.le⟩
            · have hw' : 0 < |w| := abs_pos.mpr hw
              refine ⟨min T (r / |w|), lt_min hTpos (div_pos hr hw'), min_le_left _ _, ?_⟩
              rw [abs_mul, abs_of_pos (lt_min hTpos (div_pos hr hw'))]
              calc |w| * min T (r / |w|) ≤ |w| * (r / |w|) := by gcongr; exact min_le_right _ _
                _ = r := by field_simp
          have := hcont (T - e) (by linarith) (by linarith) (by
            unfold NearPlane
            rw [plane_dot]
            have e' : d + w * (T - e) = -(w * e) := by linarith
            show |d + w * (T - e)| ≤ r
            rw [e', abs_neg]; exact he)
          linarith
        subst hT0
        have e : g 0 = c := by
          simp only [hg, plumb, h]
          ext <;> simp [along]
        rw [e] at hin'
        exact hstart hin'
      · exfalso
        exact h (.inr (fun a b hab => by
          have := hc.side_nonneg hab hin'
          have h' : side n a b (g T) = side n a b (plumb (along p v T) n (along c m T) - v.scale T) := rfl
          rw [← h']
          linarith [eps_pos]))
      · exact ⟨C, T, .face f _ hf hcs.f hC, hCT, hTt⟩
    · obtain ⟨k, a, b, k0, k1, hab, hx⟩ := hc.crossing hp hin (hflat T) hin'
      rw [← hlin] at hx
      have hle : T + (t - T) * k ≤ t := by nlinarith
      have hge : 0 ≤ T + (t - T) * k := by nlinarith [hT.1.1, mul_nonneg (sub_nonneg.mpr hTt) k0]
      obtain ⟨D, w, h1, h2, h3⟩ := mesh_edge hr hm hs hf hcs hc hab hx hge (by linarith) (hdist _ (nearPlane_between hT.1.2.2 hnt k0 k1))
      exact ⟨D, w, h1, h2, by linarith⟩
  · obtain ⟨x, hx, hb⟩ := hmeet
    rw [inFace_moved] at hx
    obtain ⟨k, a, b, k0, k1, hab, hk⟩ := hc.crossing hp hx (hflat t) hin
    refine mesh_edge hr hm hs hf hcs hc hab hk t0 t1 ?_
    rw [inBall_iff hr.le] at hb ⊢
    have hperp : ∀ y, (y - p).dot n = 0 → (y + v.scale t - along c m t).dot (y + v.scale t - along c m t) =
        (y - g t).dot (y - g t) + ((along c m t - along p v t).dot n) * ((along c m t - along p v t).dot n) := by
      intro y hy
      have hq : (y - g t).dot n = 0 := by
        have : (y - g t).dot n = (y - p).dot n - (g t - p).dot n := by simp [Vec3.dot_def]; ring
        rw [this, hy, hflat, sub_zero]
      have e : y + v.scale t - along c m t = (y - g t) + n.scale (-((along c m t - along p v t).dot n)) := by
        simp only [hg, plumb]; ext <;> simp <;> ring
      rw [e]
      have e2 : ∀ (u : Vec3 ℝ) (d : ℝ), (u + n.scale d).dot (u + n.scale d) = u.dot u + 2 * d * u.dot n + d * d * n.dot n := by
        intro u d; simp [Vec3.dot_def]; ring
      rw [e2, hq, hc.unit]; ring
    have hx' := hperp (x - v.scale t) (hc.flat_face hp hx)
    have e : x - v.scale t + v.scale t = x := by ext <;> simp
    rw [e] at hx'
    have hy' := hperp (g t + (x - v.scale t - g t).scale k) (by
      have : (g t + (x - v.scale t - g t).scale k - p).dot n = (g t - p).dot n + ((x - v.scale t - p).dot n - (g t - p).dot n) * k := by simp [Vec3.dot_def]; ring
      rw [this, hflat, hc.flat_face hp hx]; ring)
    rw [hy']
    have e3 : (g t + (x - v.scale t - g t).scale k - g t).dot (g t + (x - v.scale t - g t).scale k - g t) =
        k * k * (x - v.scale t - g t).dot (x - v.scale t - g t) := by simp [Vec3.dot_def]; ring
    rw [e3]
    have hnn := Vec3.dot_self_nonneg (x - v.scale t - g t)
    have hkk : k * k ≤ 1 := by nlinarith
    nlinarith [mul_le_mul_of_nonneg_right hkk hnn]

theorem mesh_ok (hm : ConvexMesh vs es fs) : ∃ o, collideSphereMesh (fin r) c.f m.f (vs.map Vec3.f) es fs v.f = .ok o := by
  refine collideSphereMesh_ok ?_ ?_
  · rintro ⟨i, j⟩ he
    obtain ⟨f, hf, hij⟩ := hm.sides i j he
    obtain ⟨cs, n, hcs, -⟩ := hm.faces f hf
    have key : ∀ i j, Follows f i j → i < (vs.map Vec3.f).length ∧ j < (vs.map Vec3.f).length := by
      intro i j h
      obtain ⟨a, b, -, h1, h2⟩ := hcs.of_follows h
      rw [List.length_map]
      exact ⟨(List.getElem?_eq_some_iff.mp h1).1, (List.getElem?_eq_some_iff.mp h2).1⟩
    rcases hij with h | h
    · exact key i j h
    · exact (key j i h).symm
  · intro f hf
    obtain ⟨cs, n, hcs, hc⟩ := hm.faces f hf
    refine ⟨by rw [hcs.length_eq]; exact hc.three, fun i hi => ?_⟩
    obtain ⟨p, -, h⟩ := hcs.mem hi
    rw [List.length_map]
    exact (List.getElem?_eq_some_iff.mp h).1

theorem inStep_time {D : Collision XReal} (h : InStep D) : ∃ w : ℝ, D.times.min = fin w ∧ 0 ≤ w ∧ w ≤ 1 := by
  obtain ⟨-, h1, h2, h3⟩ := h
  have h4 := le_trans' h2 h3
  revert h1 h4
  cases D.times.min <;> simp
  exact fun h1 h2 => ⟨h1, h2⟩

/-- **C63**, completeness clear of the cut-offs: a ball that meets the mesh at some time of the step is reported, with a time that is not later. -/
theorem C63_complete_partial (hr : 0 < r) (hm : ConvexMesh vs es fs) (hs : ClearOf r c m vs es fs v) {t : ℝ} (t0 : 0 ≤ t) (t1 : t ≤ 1)
    (h : BallMeetsMesh r c m vs fs v t) :
    ∃ C u, collideSphereMesh (fin r) c.f m.f (vs.map Vec3.f) es fs v.f = .ok (some C) ∧ C.times.min = fin u ∧ 0 ≤ u ∧ u ≤ t := by
  obtain ⟨o, ho⟩ := mesh_ok (r := r) (c := c) (m := m) (v := v) hm
  have hE := C47_sphereMesh ho
  obtain ⟨D, w, hD, hw, hwt⟩ := mesh_face hr hm hs t0 t1 h
  cases o with
  | none => exact absurd hD (hE.2.mp rfl D)
  | some C =>
    have hle := (hE.1 C rfl).2 D hD
    obtain ⟨u, hu, u0, -⟩ := inStep_time (in_sphereMesh ho C rfl)
    rw [hu, hw] at hle
    exact ⟨C, u, ho, hu, u0, le_trans (by simpa using hle) hwt⟩
end

/-! ### Soundness -/

/-- The face has a point `z` in its plane that is at least `ρ` inside all edges and within `R` of all corners. -/
structure Roomy (cs : List (Vec3 ℝ)) (n z : Vec3 ℝ) (ρ R : ℝ) : Prop where
  enough : eps ≤ ρ
  inside : ∀ a b, Follows cs a b → ρ ≤ side n a b z
  flat : ∀ p ∈ cs, (z - p).dot n = 0
  reach : ∀ p ∈ cs, InBall z R p

theorem inBall_between {z x y : Vec3 ℝ} {R k : ℝ} (hx : InBall z R x) (hy : InBall z R y) (k0 : 0 ≤ k) (k1 : k ≤ 1) : InBall z R (x + (y - x).scale k) := by
  unfold InBall at *
  have e : x + (y - x).scale k - z = (x - z).scale (1 - k) + (y - z).scale k := by ext <;> simp <;> ring
  rw [e]
  refine le_trans (len_triangle _ _) ?_
  rw [Vec3.len_scale, Vec3.len_scale, abs_of_nonneg k0, abs_of_nonneg (by linarith : 0 ≤ 1 - k)]
  nlinarith [mul_le_mul_of_nonneg_right hx (sub_nonneg.mpr k1), mul_le_mul_of_nonneg_right hy k0]

theorem Roomy.face {cs : List (Vec3 ℝ)} {n z : Vec3 ℝ} {ρ R : ℝ} (h : Roomy cs n z ρ R) {x : Vec3 ℝ} (hx : InFace cs x) : InBall z R x := by
  induction hx with
  | corner hc => exact h.reach _ hc
  | between _ _ k0 k1 h1 h2 => exact inBall_between h1 h2 k0 k1

/-- A point that the loop accepts is within `eps * R / ρ` of the face. -/
theorem Roomy.near {cs : List (Vec3 ℝ)} {n z : Vec3 ℝ} {ρ R : ℝ} (h : Roomy cs n z ρ R) (hc : ConvexFace cs n) {p x : Vec3 ℝ} (hp : p ∈ cs)
    (hx : (x - p).dot n = 0) (ha : Accepts cs n x) : ∃ y, InFace cs y ∧ (x - y).len ≤ eps * R / ρ := by
  obtain ⟨y, hy, hl⟩ := accepts_near hc hp h.enough h.inside (h.flat p hp) hx ha
  refine ⟨y, hy, ?_⟩
  have hpos := eps_pos
  have hρ : 0 < ρ := lt_of_lt_of_le hpos h.enough
  have hR : (y - z).len ≤ R := h.face hy
  have htri : (x - z).len ≤ (x - y).len + (y - z).len := by
    have e : x - z = (x - y) + (y - z) := by ext <;> simp
    rw [e]; exact len_triangle _ _
  have hk : 0 < eps + ρ := by linarith
  rw [div_mul_eq_mul_div, le_div_iff₀ hk] at hl
  rw [le_div_iff₀ hρ]
  nlinarith

section
variable {r : ℝ} {c m v : Vec3 ℝ}

/-- A hit on a safe edge is near the edge. -/
theorem edge_near (hr : 0 < r) {a b : Vec3 ℝ} (hd : b - a ≠ .o) (hs : SafeLine r c m a (b - a) v) {C : Collision XReal}
    (h : collideSphereMidSegment (fin r) c.f m.f a.f b.f v.f = some C) :
    ∃ t x, C.times.min = fin t ∧ 0 ≤ t ∧ t ≤ 1 ∧ OnSegment (along a v t) (along b v t) x ∧ InBall (along c m t) (Real.sqrt (r * r + eps) + eps) x := by
  have hp := eps_pos
  have hq : ∃ t x, C.times.min = fin t ∧ 0 ≤ t ∧ t ≤ 1 ∧ OnSegment (along a v t) (along b v t) x ∧
      (foot (along a v t) (b - a) (along c m t) - x).len ≤ eps / 2 ∧
      lineA m (unit (b - a)) v * t ^ 2 + lineB c m a (unit (b - a)) v * t + lineC r c a (unit (b - a)) ≤ eps := by
    rcases hs with hc | hc
    · have hA : lineA m (unit (b - a)) v = 0 := by unfold lineA; rw [hc]; exact (Vec3.dot_self_eq_zero _).mpr rfl
      have hB : lineB c m a (unit (b - a)) v = 0 := by unfold lineB; rw [hc]; simp [Vec3.dot_def]
      rcases segment_first (r := r) (c := c) (m := m) (v := v) hd (P := fun _ => lineC r c a (unit (b - a)) < eps) (fun t _ _ => by
        rw [hA, hB]
        exact (C40_degenerate 0 0 _ (by rw [abs_zero]; exact eps_pos)).1 (by rw [abs_zero]; exact eps_pos) t) with h' | ⟨D, t, hD, ht, hf, -, x, hx', hq'⟩
      · rw [h'.1] at h; cases h
      · rw [hD] at h; cases h
        exact ⟨t, x, ht, hf.1.1, hf.1.2.1, hx', hq', by rw [hA, hB]; linarith [hf.1.2.2]⟩
    · rcases C60_edge_partial hr.le hd hc with h' | ⟨D, t, hD, ht, hf, -, x, hx', hq'⟩
      · rw [h'.1] at h; cases h
      · rw [hD] at h; cases h
        exact ⟨t, x, ht, hf.1.1, hf.1.2.1, hx', hq', by have := (meetsLine_iff hr.le hd t).mp hf.1.2.2; linarith⟩
  obtain ⟨t, x, ht, t0, t1, hseg, hl, hquad⟩ := hq
  refine ⟨t, x, ht, t0, t1, hseg, ?_⟩
  unfold InBall
  have e : x - along c m t = (foot (along a v t) (b - a) (along c m t) - along c m t) + -(foot (along a v t) (b - a) (along c m t) - x) := by ext <;> simp
  rw [e]
  refine le_trans (len_triangle _ _) (add_le_add ?_ (by rw [Vec3.len_neg]; linarith))
  refine Real.sqrt_le_sqrt ?_
  rw [line_quadratic (r := r) hd t]
  linarith

/-- A hit on a safe vertex is near the vertex. -/
theorem corner_near (hr : 0 < r) {p : Vec3 ℝ} (hs : SafePoint r c m p v) {C : Collision XReal}
    (h : collideSphereSphere (fin r) c.f m.f (fin 0) p.f v.f = some C) :
    ∃ t, C.times.min = fin t ∧ 0 ≤ t ∧ t ≤ 1 ∧ InBall (along c m t) (Real.sqrt (r * r + eps) + eps) (along p v t) := by
  have hp := eps_pos
  have hq : ∃ t, C.times.min = fin t ∧ 0 ≤ t ∧ t ≤ 1 ∧ (along p v t - along c m t).dot (along p v t - along c m t) ≤ r * r + eps := by
    rcases hs with hc | hc
    · rcases C43_resting (r1 := r) (r2 := 0) (c1 := c) (m1 := m) (c2 := p) (m2 := v) (by linarith) (by rw [hc, (Vec3.dot_self_eq_zero _).mpr rfl]; exact eps_pos)
        (by rw [hc]; simp [Vec3.dot_def]; exact eps_pos) with ⟨h', -⟩ | ⟨D, hD, hu, hlt, -⟩
      · rw [h'] at h; cases h
      · rw [hD] at h; cases h
        refine ⟨0, hu, le_refl _, zero_le_one, ?_⟩
        have e : (along p v 0 - along c m 0).dot (along p v 0 - along c m 0) = (c - p).dot (c - p) := by simp [along, Vec3.dot_def]; ring
        rw [e]
        nlinarith
    · rcases corner_first hr hc with ⟨h', -⟩ | ⟨D, u, hD, hu, hf⟩
      · rw [h'] at h; cases h
      · rw [hD] at h; cases h
        have := (inBall_iff hr.le).mp hf.1.2.2
        exact ⟨u, hu, hf.1.1, hf.1.2.1, by linarith⟩
  obtain ⟨t, ht, t0, t1, hd⟩ := hq
  refine ⟨t, ht, t0, t1, ?_⟩
  unfold InBall
  have h3 : (along p v t - along c m t).len ≤ Real.sqrt (r * r + eps) := Real.sqrt_le_sqrt hd
  linarith

variable {vs : List (Vec3 ℝ)} {es : List (Nat × Nat)} {fs : List (List Nat)}

/-- **C63**, soundness clear of the cut-offs, for faces that are not too thin: at the reported time the mesh is within `slack` more than the radius of the
centre, where `slack` allows for the cut-offs. -/
theorem C63_reported_partial (hr : 0 < r) (hm : ConvexMesh vs es fs) (hs : ClearOf r c m vs es fs v) {slack : ℝ}
    (hroom : ∀ f ∈ fs, ∀ cs n, Corners vs f cs → ConvexFace cs n → ∃ z ρ R, Roomy cs n z ρ R ∧ eps * R / ρ ≤ slack)
    (hslack : Real.sqrt (r * r + eps) + eps ≤ r + slack) {C : Collision XReal}
    (h : collideSphereMesh (fin r) c.f m.f (vs.map Vec3.f) es fs v.f = .ok (some C)) :
    ∃ t, C.times.min = fin t ∧ 0 ≤ t ∧ t ≤ 1 ∧ BallMeetsMesh (r + slack) c m vs fs v t := by
  rcases ((C47_sphereMesh h).1 C rfl).1 with ⟨q, hq, hh⟩ | ⟨i, j, a, b, he, ha, hb, hh⟩ | ⟨f, ps, hf, hps, hh⟩
  · obtain ⟨p, hp, rfl⟩ := List.mem_map.mp hq
    rw [zero_eq] at hh
    obtain ⟨t, ht, t0, t1, hin⟩ := corner_near hr (hs.points p hp) hh
    obtain ⟨i, hi⟩ := List.getElem?_of_mem hp
    obtain ⟨f, hf, hif⟩ := hm.used i (List.getElem?_eq_some_iff.mp hi).1
    obtain ⟨cs, n, hcs, -⟩ := hm.faces f hf
    obtain ⟨p', hp', hi'⟩ := hcs.mem hif
    rw [hi] at hi'
    cases hi'
    exact ⟨t, ht, t0, t1, f, hf, cs, hcs, along p v t, .corner (List.mem_map.mpr ⟨p, hp', rfl⟩), le_trans hin hslack⟩
  · rw [List.getElem?_map, Option.map_eq_some_iff] at ha hb
    obtain ⟨a, ha, rfl⟩ := ha
    obtain ⟨b, hb, rfl⟩ := hb
    obtain ⟨f, hf, hij⟩ := hm.sides i j he
    obtain ⟨cs, n, hcs, hc⟩ := hm.faces f hf
    have hab : (a ∈ cs ∧ b ∈ cs) ∧ a ≠ b := by
      rcases hij with h | h
      · obtain ⟨a', b', h1, h2, h3⟩ := hcs.of_follows h
        rw [ha] at h2; rw [hb] at h3; cases h2; cases h3
        exact ⟨follows_mem h1, hc.edge_ne h1⟩
      · obtain ⟨b', a', h1, h2, h3⟩ := hcs.of_follows h
        rw [hb] at h2; rw [ha] at h3; cases h2; cases h3
        exact ⟨(follows_mem h1).symm, (hc.edge_ne h1).symm⟩
    have hd : b - a ≠ .o := by
      intro h0
      apply hab.2
      have h1 := congrArg Vec3.x h0; have h2 := congrArg Vec3.y h0; have h3 := congrArg Vec3.z h0
      simp at h1 h2 h3
      ext <;> linarith
    obtain ⟨t, x, ht, t0, t1, hx, hin⟩ := edge_near hr hd (hs.edges i j a b he ha hb) hh
    exact ⟨t, ht, t0, t1, f, hf, cs, hcs, x, onSegment_face (List.mem_map.mpr ⟨a, hab.1.1, rfl⟩) (List.mem_map.mpr ⟨b, hab.1.2, rfl⟩) hx, le_trans hin hslack⟩
  · obtain ⟨cs, rfl, hcs⟩ := Corners.of_f hps
    obtain ⟨cs', n, hcs', hc⟩ := hm.faces f hf
    cases hcs.unique hcs'
    obtain ⟨hcr, -⟩ := hs.planes f hf cs n hcs hc
    obtain ⟨z, ρ, R, hroomy, hsl⟩ := hroom f hf cs n hcs hc
    obtain ⟨p, hp⟩ : ∃ p, p ∈ cs := by
      have := hc.three
      match cs, this with
      | a :: _, _ => exact ⟨a, by simp⟩
    rcases polygon_first (c := c) hr.le hc hp hcr with ⟨h', -⟩ | ⟨t, ht, ⟨h', -⟩ | ⟨D, h1, h2, -, h3, -⟩⟩
    · rw [h'] at hh; cases hh
    · rw [h'] at hh; cases hh
    · rw [h1] at hh; cases hh
      obtain ⟨y, hy, hl⟩ := hroomy.near hc hp (by
        have := plumb_flat (p := along p v t) (x := along c m t) hc.unit
        have e : (plumb (along p v t) n (along c m t) - v.scale t - p).dot n = (plumb (along p v t) n (along c m t) - along p v t).dot n := by
          generalize plumb (along p v t) n (along c m t) = q; simp [along, Vec3.dot_def]; ring
        rw [e, this]) h3
      refine ⟨t, h2, ht.1.1, ht.1.2.1, f, hf, cs, hcs, y + v.scale t, ?_, ?_⟩
      · rw [inFace_moved]
        have : y + v.scale t - v.scale t = y := by ext <;> simp
        rw [this]; exact hy
      · unfold InBall
        have e : y + v.scale t - along c m t = (plumb (along p v t) n (along c m t) - along c m t) + -(plumb (along p v t) n (along c m t) - v.scale t - y) := by
          ext <;> simp <;> ring
        rw [e]
        refine le_trans (len_triangle _ _) (add_le_add ?_ (by rw [Vec3.len_neg]; linarith))
        rw [plumb_len hc.unit]
        exact ht.1.2.2
end

/-! ### Meshes in the world -/

theorem side_world {o : Orientation ℝ} (ho : o.Unit) (n a b x : Vec3 ℝ) :
    side (o.rotation.rot n) (o.toWorld a) (o.toWorld b) (o.toWorld x) = side n a b x := by
  have h : ∀ a b, o.toWorld a - o.toWorld b = o.rotation.rot (a - b) := by
    intro a b
    unfold Orientation.toWorld
    rw [Quat.rot_add, Quat.rot_add, Quat.rot_sub]
    ext <;> simp
  unfold side
  rw [h, h, ← Quat.rot_cross _ _ ho, Quat.rot_dot _ _ ho]

theorem toWorld_inj {o : Orientation ℝ} (ho : o.Unit) {a b : Vec3 ℝ} (h : o.toWorld a = o.toWorld b) : a = b := by
  rw [← o.toLocal_toWorld a ho, h, o.toLocal_toWorld b ho]

theorem follows_map {τ ρ : Type} {g : τ → ρ} {l : List τ} {x y : ρ} (h : Follows (l.map g) x y) : ∃ a b, Follows l a b ∧ x = g a ∧ y = g b := by
  obtain ⟨k, hk, h1, h2⟩ := h
  rw [List.length_map] at hk h2
  rw [List.getElem?_map, Option.map_eq_some_iff] at h1 h2
  obtain ⟨a, ha, rfl⟩ := h1
  obtain ⟨b, hb, rfl⟩ := h2
  exact ⟨a, b, ⟨k, hk, ha, hb⟩, rfl, rfl⟩

/-- A convex face stays one in the world. -/
theorem ConvexFace.world {o : Orientation ℝ} (ho : o.Unit) (q : Vec3 ℝ) {cs : List (Vec3 ℝ)} {n : Vec3 ℝ} (h : ConvexFace cs n) :
    ConvexFace (cs.map (fun p => o.toWorld (q + p))) (o.rotation.rot n) := by
  have hinj : ∀ a b : Vec3 ℝ, o.toWorld (q + a) = o.toWorld (q + b) → a = b := by
    intro a b he
    have := toWorld_inj ho he
    have hx := congrArg Vec3.x this; have hy := congrArg Vec3.y this; have hz := congrArg Vec3.z this
    simp at hx hy hz
    ext <;> assumption
  have hs : ∀ a b x : Vec3 ℝ, side n (q + a) (q + b) (q + x) = side n a b x := by
    intro a b x; simp [side, Vec3.dot_def]
  refine ⟨by rw [List.length_map]; exact h.three, h.distinct.map (fun a b he => hinj a b he), by rw [Quat.rot_dot _ _ ho]; exact h.unit, ?_, ?_⟩
  · intro a ha b hb
    obtain ⟨a, ha', rfl⟩ := List.mem_map.mp ha
    obtain ⟨b, hb', rfl⟩ := List.mem_map.mp hb
    have e : o.toWorld (q + b) - o.toWorld (q + a) = o.rotation.rot (b - a) := by
      unfold Orientation.toWorld
      simp only [Quat.rot_add, Quat.rot_sub]
      ext <;> simp
    rw [e, Quat.rot_dot _ _ ho]
    exact h.flat a ha' b hb'
  · intro x y hf d hd h1 h2
    obtain ⟨a, b, hab, rfl, rfl⟩ := follows_map hf
    obtain ⟨d, hd', rfl⟩ := List.mem_map.mp hd
    rw [side_world ho, hs]
    exact h.turn a b hab d hd' (by rintro rfl; exact h1 rfl) (by rintro rfl; exact h2 rfl)

theorem Corners.map {g : Vec3 ℝ → Vec3 ℝ} {vs : List (Vec3 ℝ)} {f : List Nat} {cs : List (Vec3 ℝ)} (h : Corners vs f cs) : Corners (vs.map g) f (cs.map g) := by
  unfold Corners at *
  induction h with
  | nil => exact .nil
  | cons h1 _ ih => exact .cons (by simp [h1]) ih

theorem ConvexMesh.world {o : Orientation ℝ} (ho : o.Unit) (q : Vec3 ℝ) {vs : List (Vec3 ℝ)} {es : List (Nat × Nat)} {fs : List (List Nat)} (h : ConvexMesh vs es fs) :
    ConvexMesh (vs.map (fun p => o.toWorld (q + p))) es fs := by
  refine ⟨fun f hf => ?_, h.listed, h.sides, by rw [List.length_map]; exact h.used⟩
  obtain ⟨cs, n, h1, h2⟩ := h.faces f hf
  exact ⟨_, _, h1.map, h2.world ho q⟩

theorem inFace_world {o : Orientation ℝ} (q : Vec3 ℝ) {cs : List (Vec3 ℝ)} {x : Vec3 ℝ} (h : InFace cs x) : InFace (cs.map (fun p => o.toWorld (q + p))) (o.toWorld (q + x)) := by
  induction h with
  | corner h => exact .corner (List.mem_map.mpr ⟨_, h, rfl⟩)
  | @between x y k _ _ k0 k1 h1 h2 =>
    have : o.toWorld (q + (x + (y - x).scale k)) = o.toWorld (q + x) + (o.toWorld (q + y) - o.toWorld (q + x)).scale k := by
      unfold Orientation.toWorld
      simp only [Quat.rot_add, Quat.rot_sub, Quat.rot_scale]
      ext <;> simp <;> ring
    rw [this]; exact .between h1 h2 k0 k1

/-- The points of a mesh at `q` in an entity. -/
def InMesh (q : Vec3 ℝ) (vs : List (Vec3 ℝ)) (fs : List (List Nat)) (x : Vec3 ℝ) : Prop := ∃ f ∈ fs, ∃ cs, Corners vs f cs ∧ ∃ y, InFace cs y ∧ x = q + y

theorem shifted_world {o : Orientation ℝ} (d x : Vec3 ℝ) (t : ℝ) : (shifted o d t).toWorld x = along (o.toWorld x) d t := by
  unfold Orientation.toWorld shifted along
  ext <;> simp <;> ring

/-- **C63** in the world, for a mesh whose entity does not turn during the step: clear of the cut-offs, a ball that meets the mesh at some time of the step is
reported with a time that is not later, whichever collider comes first. -/
theorem C63_world_partial {s : SphereCollider XReal} {M : MeshCollider XReal} {o1 e1 : Orientation XReal} {o : Orientation ℝ} {r : ℝ} {d p p' q : Vec3 ℝ}
    {vs : List (Vec3 ℝ)} (ho : o.Unit) (hr1 : s.radius = fin r) (hr : 0 < r) (hM : M.vertices = vs.map Vec3.f) (hq : M.position = q.f)
    (hc : ConvexMesh vs M.edges M.faces) (hp : o1.positionIntoWorld s.center = p.f) (hp' : e1.positionIntoWorld s.center = p'.f)
    (hs : ClearOf r p (p' - p) (vs.map (fun x => o.toWorld (q + x))) M.edges M.faces d) {t : ℝ} (t0 : 0 ≤ t) (t1 : t ≤ 1)
    (h : ∃ x, InMesh q vs M.faces x ∧ InBall (along p (p' - p) t) r ((shifted o d t).toWorld x)) :
    ∃ C D u, collide (.sphere s) o1 e1 (.mesh M) o.f (shifted o d 1).f = .ok (some C) ∧ collide (.mesh M) o.f (shifted o d 1).f (.sphere s) o1 e1 = .ok (some D) ∧
      C.times.min = fin u ∧ D.times.min = fin u ∧ 0 ≤ u ∧ u ≤ t := by
  obtain ⟨x, ⟨f, hf, cs, hcs, y, hy, rfl⟩, hb⟩ := h
  rw [shifted_world] at hb
  have hmeet : BallMeetsMesh r p (p' - p) (vs.map (fun x => o.toWorld (q + x))) M.faces d t := by
    refine ⟨f, hf, _, hcs.map, _, inFace_moved.mpr ?_, hb⟩
    have : along (o.toWorld (q + y)) d t - d.scale t = o.toWorld (q + y) := by unfold along; ext <;> simp
    rw [this]
    exact inFace_world q hy
  obtain ⟨C, u, hC, hu, u0, hut⟩ := C63_complete_partial hr (hc.world ho q) hs t0 t1 hmeet
  have hd : dispatchSphereMesh s o1 e1 M o.f (shifted o d 1).f = .ok (some C) := by
    unfold dispatchSphereMesh
    have hv : M.verticesInWorld o.f = (vs.map (fun x => o.toWorld (q + x))).map Vec3.f := by
      unfold MeshCollider.verticesInWorld
      rw [hM, hq, List.map_map, List.map_map]
      refine List.map_congr_left (fun x _ => ?_)
      simp only [Function.comp, Vec3.f_add]
      exact Orientation.f_positionIntoWorld _ _ ho
    have hw : (shifted o d 1).f.positionIntoWorld M.position - o.f.positionIntoWorld M.position = d.f := by
      rw [hq, Orientation.f_positionIntoWorld _ _ ho, Orientation.f_positionIntoWorld _ _ (show (shifted o d 1).Unit from ho), shifted_world, Vec3.f_sub]
      congr 1
      unfold along; ext <;> simp
    simp only [hr1, hp, hp', hv, hw, Vec3.f_sub]
    exact hC
  refine ⟨C, C.flip, u, hd, ?_, hu, hu, u0, hut⟩
  show (do let r ← dispatchSphereMesh s o1 e1 M o.f (shifted o d 1).f; .ok (r.map Collision.flip) : Res (Option (Collision XReal))) = _
  rw [hd]; rfl

/-! ### Meshes made with `add_face` -/

/-- A mesh made of convex faces, whose corners are equal or not closer than the cut-off, has exactly these faces, with their edges and vertices. -/
theorem C63_made {calls : List (List (Vec3 ℝ))} {M : MeshCollider XReal} (h : Made (calls.map (fun c => c.map Vec3.f)) M) (hconv : ∀ c ∈ calls, ∃ n, ConvexFace c n)
    (hapart : ∀ c ∈ calls, ∀ d ∈ calls, ∀ p ∈ c, ∀ q ∈ d, p ≠ q → eps ≤ (p - q).len) :
    ∃ vs, M.vertices = vs.map Vec3.f ∧ ConvexMesh vs M.edges M.faces ∧ List.Forall₂ (fun c f => Corners vs f c) calls M.faces := by
  have hw := C50_wellFormed h
  obtain ⟨vs, hvs⟩ : ∃ vs : List (Vec3 ℝ), M.vertices = vs.map Vec3.f := by
    have key : ∀ l : List (Vec3 XReal), (∀ v ∈ l, ∃ p : Vec3 ℝ, v = p.f) → ∃ vs : List (Vec3 ℝ), l = vs.map Vec3.f := by
      intro l
      induction l with
      | nil => exact fun _ => ⟨[], rfl⟩
      | cons v l ih =>
        intro hl
        obtain ⟨vs, hvs⟩ := ih (fun w hw => hl w (by simp [hw]))
        obtain ⟨p, hp⟩ := hl v (by simp)
        exact ⟨p :: vs, by rw [hvs, hp]; rfl⟩
    refine key _ (fun v hv => ?_)
    obtain ⟨pts, hpts, hvp⟩ := hw.given v hv
    obtain ⟨c, -, rfl⟩ := List.mem_map.mp hpts
    obtain ⟨p, -, rfl⟩ := List.mem_map.mp hvp
    exact ⟨p, rfl⟩
  have hstand : ∀ c ∈ calls, ∀ p ∈ c, ∀ i, StandsFor M.vertices p.f i → vs[i]? = some p := by
    rintro c hc p hp i ⟨v, hv, hvp⟩
    have hgiven := hw.given v (List.mem_of_getElem? hv)
    rw [hvs, List.getElem?_map, Option.map_eq_some_iff] at hv
    obtain ⟨x, hx, rfl⟩ := hv
    obtain ⟨pts, hpts, hvp'⟩ := hgiven
    obtain ⟨d, hd, rfl⟩ := List.mem_map.mp hpts
    obtain ⟨x', hx', he⟩ := List.mem_map.mp hvp'
    cases (Vec3.f_inj _ _).mp he
    rcases hvp with hvp | hvp
    · cases (Vec3.f_inj _ _).mp hvp; exact hx
    · by_cases hxp : x = p
      · rw [← hxp]; exact hx
      · exfalso
        have := hapart d hd c hc x hx' p hp hxp
        rw [Vec3.f_sub, Vec3.f_magnitude, EPSILON_eq, fin_lt, decide_eq_true_eq] at hvp
        exact absurd hvp (not_lt.mpr (by unfold eps at this; simpa using this))
  have hfaces : List.Forall₂ (fun c f => Corners vs f c) calls M.faces := by
    have hf := hw.faces
    rw [List.forall₂_map_left_iff] at hf
    have key : ∀ (cs : List (List (Vec3 ℝ))) (fs : List (List Nat)), (∀ c ∈ cs, c ∈ calls) →
        List.Forall₂ (fun c f => List.Forall₂ (StandsFor M.vertices) (c.map Vec3.f) f) cs fs → List.Forall₂ (fun c f => Corners vs f c) cs fs := by
      intro cs fs hsub hall
      induction hall with
      | nil => exact .nil
      | @cons c f cs fs h1 _ ih =>
        refine .cons ?_ (ih (fun c hc => hsub c (by simp [hc])))
        rw [List.forall₂_map_left_iff] at h1
        have hc := hsub c (by simp)
        have inner : ∀ (l : List (Vec3 ℝ)) (f : List Nat), (∀ p ∈ l, p ∈ c) → List.Forall₂ (fun p i => StandsFor M.vertices p.f i) l f → Corners vs f l := by
          intro l f hl hh
          induction hh with
          | nil => exact .nil
          | @cons p i l f h1 _ ih => exact .cons (hstand c hc p (hl p (by simp)) i h1) (ih (fun q hq => hl q (by simp [hq])))
        exact inner c f (fun _ h => h) h1
    exact key _ _ (fun _ h => h) hf
  have hface : ∀ f ∈ M.faces, ∃ c ∈ calls, Corners vs f c := by
    intro f hf
    have key : ∀ (cs : List (List (Vec3 ℝ))) (fs : List (List Nat)), List.Forall₂ (fun c f => Corners vs f c) cs fs → ∀ f ∈ fs, ∃ c ∈ cs, Corners vs f c := by
      intro cs fs hall
      induction hall with
      | nil => simp
      | @cons c f cs fs h1 _ ih =>
        intro g hg
        rcases List.mem_cons.mp hg with rfl | hg
        · exact ⟨c, by simp, h1⟩
        · obtain ⟨d, hd, h⟩ := ih g hg
          exact ⟨d, by simp [hd], h⟩
    exact key _ _ hfaces f hf
  refine ⟨vs, hvs, ⟨fun f hf => ?_, fun f hf i j hij => ?_, fun i j hij => ?_, fun i hi => ?_⟩, hfaces⟩
  · obtain ⟨c, hc, hcf⟩ := hface f hf
    obtain ⟨n, hn⟩ := hconv c hc
    exact ⟨c, n, hcf, hn⟩
  · rcases le_total i j with hle | hle
    · exact .inl ((hw.edges i j).mpr ⟨hle, f, hf, .inl hij⟩)
    · exact .inr ((hw.edges j i).mpr ⟨hle, f, hf, .inr hij⟩)
  · exact ((hw.edges i j).mp hij).2
  · exact hw.used i (by rw [hvs, List.length_map]; exact hi)


/-! ### Where detection fails -/

/-- A ball of radius 1/2 whose centre stays at least 1 away from the vertices and edges, and that the faces do not report, is not reported. -/
theorem mesh_quiet {c m v : Vec3 ℝ} {vs : List (Vec3 ℝ)} {es : List (Nat × Nat)} {fs : List (List Nat)} (hm : ConvexMesh vs es fs)
    (hv : ∀ p ∈ vs, ∀ t, 1 ≤ (along p v t - along c m t).dot (along p v t - along c m t))
    (he : ∀ i j a b, (i, j) ∈ es → vs[i]? = some a → vs[j]? = some b → ∀ t x, OnSegment (along a v t) (along b v t) x → 1 ≤ (x - along c m t).len)
    (hf : ∀ f ∈ fs, ∀ cs, Corners vs f cs → collideSpherePolygon (fin (1 / 2)) c.f m.f (cs.map Vec3.f) v.f = .ok none) :
    collideSphereMesh (fin (1 / 2)) c.f m.f (vs.map Vec3.f) es fs v.f = .ok none := by
  obtain ⟨o, ho⟩ := mesh_ok (r := 1 / 2) (c := c) (m := m) (v := v) hm
  cases o with
  | none => exact ho
  | some C =>
    exfalso
    rcases ((C47_sphereMesh ho).1 C rfl).1 with ⟨q, hq, hh⟩ | ⟨i, j, a, b, hij, ha, hb, hh⟩ | ⟨f, ps, hf', hps, hh⟩
    · obtain ⟨p, hp, rfl⟩ := List.mem_map.mp hq
      rw [zero_eq] at hh
      obtain ⟨t, -, -, -, h⟩ := C43_reported (by norm_num) hh
      have := hv p hp t
      have e : (along c m t - along p v t).dot (along c m t - along p v t) = (along p v t - along c m t).dot (along p v t - along c m t) := by simp [Vec3.dot_def]; ring
      rw [e] at h
      norm_num at h
      linarith
    · rw [List.getElem?_map, Option.map_eq_some_iff] at ha hb
      obtain ⟨a, ha, rfl⟩ := ha
      obtain ⟨b, hb, rfl⟩ := hb
      have hd : b - a ≠ .o := by
        obtain ⟨f, hf', h⟩ := hm.sides i j hij
        obtain ⟨cs, n, hcs, hc⟩ := hm.faces f hf'
        have hne : a ≠ b := by
          rcases h with h | h
          · obtain ⟨a', b', h1, h2, h3⟩ := hcs.of_follows h
            rw [ha] at h2; rw [hb] at h3; cases h2; cases h3
            exact hc.edge_ne h1
          · obtain ⟨b', a', h1, h2, h3⟩ := hcs.of_follows h
            rw [hb] at h2; rw [ha] at h3; cases h2; cases h3
            exact (hc.edge_ne h1).symm
        intro h0
        apply hne
        have h1 := congrArg Vec3.x h0; have h2 := congrArg Vec3.y h0; have h3 := congrArg Vec3.z h0
        simp at h1 h2 h3
        ext <;> linarith
      obtain ⟨t, q, x, -, -, -, -, -, hq, hx, hqx⟩ := C60_reported hd hh
      have h1 := he i j a b hij ha hb t x hx
      have h2 : (q - along c m t).len ≤ 3 / 4 := by
        show Real.sqrt _ ≤ _
        rw [Real.sqrt_le_left (by norm_num)]
        norm_num at hq ⊢
        linarith
      have e : x - along c m t = (q - along c m t) + -(q - x) := by ext <;> simp
      rw [e] at h1
      have h3 := le_trans h1 (len_triangle _ _)
      rw [Vec3.len_neg] at h3
      unfold eps at hqx
      linarith
    · obtain ⟨cs, rfl, hcs⟩ := Corners.of_f hps
      rw [hf f hf' cs hcs] at hh
      cases hh

/-- The vertices, edges and face of a single triangle. -/
theorem ConvexMesh.triangle {a b c n : Vec3 ℝ} (h : ConvexFace [a, b, c] n) : ConvexMesh [a, b, c] [(0, 1), (1, 2), (0, 2)] [[0, 1, 2]] := by
  have hfol : ∀ i j : Nat, Follows [0, 1, 2] i j ↔ (i = 0 ∧ j = 1) ∨ (i = 1 ∧ j = 2) ∨ (i = 2 ∧ j = 0) := by
    intro i j; rw [← mem_cyclicPairs]; simp [cyclicPairs]
  refine ⟨?_, ?_, ?_, ?_⟩
  · intro f hf
    rw [List.mem_singleton] at hf
    subst hf
    exact ⟨[a, b, c], n, .cons rfl (.cons rfl (.cons rfl .nil)), h⟩
  · intro f hf i j hij
    rw [List.mem_singleton] at hf
    subst hf
    rcases (hfol i j).mp hij with ⟨rfl, rfl⟩ | ⟨rfl, rfl⟩ | ⟨rfl, rfl⟩ <;> simp
  · intro i j hij
    refine ⟨[0, 1, 2], by simp, ?_⟩
    rw [hfol, hfol]
    simp only [List.mem_cons, Prod.mk.injEq, List.not_mem_nil, or_false] at hij
    omega
  · intro i hi
    simp only [List.length_cons, List.length_nil] at hi
    exact ⟨[0, 1, 2], by simp, by simp; omega⟩

theorem triangle_corners {a b c : Vec3 ℝ} {f : List Nat} {cs : List (Vec3 ℝ)} (hf : f ∈ [[0, 1, 2]]) (h : Corners [a, b, c] f cs) : cs = [a, b, c] := by
  rw [List.mem_singleton] at hf
  subst hf
  exact h.unique (.cons rfl (.cons rfl (.cons rfl .nil)))

theorem le_len {d : ℝ} (hd : 0 ≤ d) {u : Vec3 ℝ} (h : d * d ≤ u.dot u) : d ≤ u.len := Real.le_sqrt_of_sq_le (by nlinarith)

/-- **C63 fails** for a centre that starts on a face: a ball that starts in the middle of a triangle and leaves it is not reported. -/
theorem C63_false_centre : ∃ (c m : Vec3 ℝ) (vs : List (Vec3 ℝ)) (es : List (Nat × Nat)) (fs : List (List Nat)), ConvexMesh vs es fs ∧
    BallMeetsMesh (1 / 2) c m vs fs .o 0 ∧ collideSphereMesh (fin (1 / 2)) c.f m.f (vs.map Vec3.f) es fs (Vec3.o).f = .ok none := by
  refine ⟨⟨1, 1, 0⟩, ⟨0, 0, 1⟩, Face.sheet, [(0, 1), (1, 2), (0, 2)], [[0, 1, 2]], .triangle Face.sheet_convex,
    ⟨[0, 1, 2], by simp, Face.sheet, .cons rfl (.cons rfl (.cons rfl .nil)), ⟨1, 1, 0⟩, ?_, ?_⟩, mesh_quiet (.triangle Face.sheet_convex) ?_ ?_ ?_⟩
  · rw [inFace_moved]
    have : (⟨1, 1, 0⟩ : Vec3 ℝ) - (Vec3.o).scale 0 = ⟨1, 1, 0⟩ := by ext <;> simp
    rw [this]; exact Face.sheet_middle
  · rw [inBall_iff (by norm_num)]; norm_num [along, Vec3.dot_def]
  · intro p hp t
    simp only [Face.sheet, List.mem_cons, List.not_mem_nil, or_false] at hp
    rcases hp with rfl | rfl | rfl <;> norm_num [along, Vec3.dot_def] <;> nlinarith [sq_nonneg t]
  · intro i j a b hij ha hb t x hx
    obtain ⟨k, k0, k1, rfl⟩ := hx
    refine le_len zero_le_one ?_
    simp only [List.mem_cons, Prod.mk.injEq, List.not_mem_nil, or_false] at hij
    rcases hij with ⟨rfl, rfl⟩ | ⟨rfl, rfl⟩ | ⟨rfl, rfl⟩ <;> simp [Face.sheet] at ha hb <;> subst ha hb <;> simp [along, Vec3.dot_def]
    · nlinarith [sq_nonneg t, sq_nonneg (4 * k - 1)]
    · nlinarith [sq_nonneg t, sq_nonneg (k - 1 / 2)]
    · nlinarith [sq_nonneg t, sq_nonneg (4 * k - 1)]
  · intro f hf cs hcs
    rw [triangle_corners hf hcs]
    have hcr : CrispPlane ⟨0, 0, 1⟩ ⟨0, 0, 1⟩ .o := .inr (by unfold eps; norm_num [Vec3.dot_def])
    have hp : (⟨0, 0, 0⟩ : Vec3 ℝ) ∈ Face.sheet := by simp [Face.sheet]
    rcases polygon_first (r := 1 / 2) (c := ⟨1, 1, 0⟩) (by norm_num) Face.sheet_convex hp hcr with ⟨h, -⟩ | ⟨t, ht, ⟨h, -⟩ | ⟨C, -, -, h, -⟩⟩
    · exact h
    · exact h
    · exfalso
      have : t = 0 := le_antisymm (ht.2 0 (le_refl _) zero_le_one (by unfold NearPlane; norm_num [along, Vec3.dot_def])) ht.1.1
      subst this
      apply h
      norm_num [along, Vec3.dot_def]

namespace Face
/-- A triangle at some distance from the origin of its entity. -/
noncomputable def wing : List (Vec3 ℝ) := [⟨5, 0, 0⟩, ⟨5, 1, 0⟩, ⟨5, 0, 1⟩]
theorem wing_convex : ConvexFace wing ⟨1, 0, 0⟩ :=
  .triangle (by norm_num [Vec3.dot_def]) (by norm_num [Vec3.dot_def]) (by norm_num [Vec3.dot_def]) (by norm_num [side, Vec3.dot_def])
/-- Half a turn about the z axis. -/
noncomputable def turned : Orientation ℝ := ⟨.o, ⟨0, 0, 0, 1⟩, .o⟩
theorem turned_unit : turned.Unit := by simp [Orientation.Unit, turned, Quat.normSq]
/-- A ball of radius 1/2. -/
noncomputable def pea (c : Vec3 ℝ) : SphereCollider XReal := ⟨none, c.f, fin (1 / 2), fin 0, .default⟩
theorem pea_valid (c : Vec3 ℝ) : Collider.newFrom (.sphere (pea c)) = some (.sphere (pea c)) := by
  simp [Collider.newFrom, SphereCollider.isValid, pea, MINIMUM_RADIUS]
  norm_num
end Face

/-- **C63 fails** for meshes that turn: a ball rests where a triangle arrives by turning about a far point, with a corner of the triangle at the ball's centre at the
end of the step, and no contact is reported. -/
theorem C63_false_turning : ∃ (s : SphereCollider XReal) (M : MeshCollider XReal) (o e o1 : Orientation ℝ) (vs : List (Vec3 ℝ)) (p x : Vec3 ℝ),
    Collider.newFrom (.sphere s) = some (.sphere s) ∧ Collider.newFrom (.mesh M) = some (.mesh M) ∧ o.Unit ∧ e.Unit ∧ o1.Unit ∧ o.position = e.position ∧
    M.vertices = vs.map Vec3.f ∧ M.position = (Vec3.o).f ∧ ConvexMesh vs M.edges M.faces ∧ InMesh .o vs M.faces x ∧ o1.f.positionIntoWorld s.center = p.f ∧
    e.toWorld x = p ∧ collide (.sphere s) o1.f o1.f (.mesh M) o.f e.f = .ok none := by
  refine ⟨Face.pea .o, Slab.triangle Face.wing, Crate.put .o, Face.turned, Crate.put ⟨-5, 0, 0⟩, Face.wing, ⟨-5, 0, 0⟩, ⟨5, 0, 0⟩, Face.pea_valid _,
    Slab.triangle_valid rfl, Crate.put_unit _, Face.turned_unit, Crate.put_unit _, rfl, rfl, rfl, .triangle Face.wing_convex, ?_, ?_, ?_, ?_⟩
  · exact ⟨[0, 1, 2], by simp [Slab.triangle], Face.wing, .cons rfl (.cons rfl (.cons rfl .nil)), ⟨5, 0, 0⟩, .corner (by simp [Face.wing]), by ext <;> simp⟩
  · show (Crate.put ⟨-5, 0, 0⟩).f.positionIntoWorld (Vec3.o).f = _
    rw [Crate.put_world]; congr 1; ext <;> simp
  · simp [Orientation.toWorld, Face.turned, Quat.rot, Quat.vec]
    ext <;> simp
    norm_num
  · show dispatchSphereMesh _ _ _ _ _ _ = _
    unfold dispatchSphereMesh
    have h1 : (Crate.put ⟨-5, 0, 0⟩).f.positionIntoWorld (Face.pea .o).center = (⟨-5, 0, 0⟩ : Vec3 ℝ).f := by
      show (Crate.put ⟨-5, 0, 0⟩).f.positionIntoWorld (Vec3.o).f = _
      rw [Crate.put_world]; congr 1; ext <;> simp
    have h2 : (Crate.put .o).f.positionIntoWorld (Slab.triangle Face.wing).position = (Vec3.o).f := by
      show (Crate.put .o).f.positionIntoWorld (Vec3.o).f = _
      rw [Crate.put_world]; congr 1; ext <;> simp
    have h3 : Face.turned.f.positionIntoWorld (Slab.triangle Face.wing).position = (Vec3.o).f := by
      show Face.turned.f.positionIntoWorld (Vec3.o).f = _
      rw [Orientation.f_positionIntoWorld _ _ Face.turned_unit]; congr 1; simp [Orientation.toWorld, Face.turned]
    have h4 : (Slab.triangle Face.wing).verticesInWorld (Crate.put .o).f = Face.wing.map Vec3.f := by
      unfold MeshCollider.verticesInWorld
      show (Face.wing.map Vec3.f).map (fun v => (Crate.put .o).f.positionIntoWorld ((Vec3.o).f + v)) = _
      rw [List.map_map]
      refine List.map_congr_left (fun x _ => ?_)
      simp only [Function.comp, Vec3.f_add, Crate.put_world]
      congr 1; ext <;> simp
    simp only [h1, h2, h3, h4, Vec3.f_sub]
    rw [Vec3.sub_self', Vec3.sub_self']
    refine mesh_quiet (.triangle Face.wing_convex) ?_ ?_ ?_
    · intro p hp t
      simp only [Face.wing, List.mem_cons, List.not_mem_nil, or_false] at hp
      rcases hp with rfl | rfl | rfl <;> norm_num [along, Vec3.dot_def]
    · intro i j a b hij ha hb t x hx
      obtain ⟨k, k0, k1, rfl⟩ := hx
      refine le_len zero_le_one ?_
      simp only [Slab.triangle, List.mem_cons, Prod.mk.injEq, List.not_mem_nil, or_false] at hij
      rcases hij with ⟨rfl, rfl⟩ | ⟨rfl, rfl⟩ | ⟨rfl, rfl⟩ <;> simp [Face.wing] at ha hb <;> subst ha hb <;> simp [along, Vec3.dot_def] <;>
        nlinarith [sq_nonneg k, sq_nonneg (1 - k)]
    · intro f hf cs hcs
      rw [triangle_corners hf hcs]
      have hp : (⟨5, 0, 0⟩ : Vec3 ℝ) ∈ Face.wing := by simp [Face.wing]
      rcases polygon_first (r := 1 / 2) (c := ⟨-5, 0, 0⟩) (m := .o) (v := .o) (by norm_num) Face.wing_convex hp (.inl (by simp [Vec3.dot_def])) with ⟨h, -⟩ | ⟨t, ht, -⟩
      · exact h
      · exfalso
        have := ht.1.2.2
        unfold NearPlane at this
        norm_num [along, Vec3.dot_def] at this


namespace Face
/-- A triangle with sides 6, 8 and 10. -/
noncomputable def square : List (Vec3 ℝ) := [⟨0, 0, 0⟩, ⟨8, 0, 0⟩, ⟨0, 6, 0⟩]
theorem square_convex : ConvexFace square ⟨0, 0, 1⟩ :=
  .triangle (by norm_num [Vec3.dot_def]) (by norm_num [Vec3.dot_def]) (by norm_num [Vec3.dot_def]) (by norm_num [side, Vec3.dot_def])
theorem square_middle : InFace square ⟨2, 2, 0⟩ := by
  have := InFace.between (InFace.between (cs := square) (x := ⟨0, 0, 0⟩) (y := ⟨8, 0, 0⟩) (k := 3 / 8) (.corner (by simp [square])) (.corner (by simp [square]))
    (by norm_num) (by norm_num)) (.corner (c := ⟨0, 6, 0⟩) (by simp [square])) (k := 1 / 3) (by norm_num) (by norm_num)
  convert this using 1
  ext <;> norm_num
/-- The triangle winds about the z axis only. -/
theorem square_normal {n : Vec3 ℝ} (h : ConvexFace square n) : n = ⟨0, 0, 1⟩ := by
  have h1 := h.flat ⟨0, 0, 0⟩ (by simp [square]) ⟨8, 0, 0⟩ (by simp [square])
  have h2 := h.flat ⟨0, 0, 0⟩ (by simp [square]) ⟨0, 6, 0⟩ (by simp [square])
  have h3 := h.unit
  have h4 := h.turn ⟨0, 0, 0⟩ ⟨8, 0, 0⟩ (follows_triangle.mpr (.inl ⟨rfl, rfl⟩)) ⟨0, 6, 0⟩ (by simp [square]) (by simp) (by simp)
  obtain ⟨x, y, z⟩ := n
  norm_num [Vec3.dot_def, side] at h1 h2 h3 h4
  subst h1 h2
  norm_num at h3 h4
  have : z = 1 := by nlinarith
  rw [this]
end Face

/-- A ball falling onto the middle of a triangle, for `C63_complete_partial` and `C63_reported_partial`: the mesh is convex, the movement is clear of the cut-offs, the
face is roomy, and the ball touches it half way through the step. -/
example : ConvexMesh Face.square [(0, 1), (1, 2), (0, 2)] [[0, 1, 2]] ∧ ClearOf 1 ⟨2, 2, 2⟩ ⟨0, 0, -2⟩ Face.square [(0, 1), (1, 2), (0, 2)] [[0, 1, 2]] .o ∧
    Roomy Face.square ⟨0, 0, 1⟩ ⟨2, 2, 0⟩ 1 8 ∧ BallMeetsMesh 1 ⟨2, 2, 2⟩ ⟨0, 0, -2⟩ Face.square [[0, 1, 2]] .o (1 / 2) := by
  have he : eps = 1 / 1000000 := rfl
  refine ⟨.triangle Face.square_convex, ⟨?_, ?_, ?_⟩, ⟨?_, ?_, ?_, ?_⟩, ⟨[0, 1, 2], by simp, Face.square, .cons rfl (.cons rfl (.cons rfl .nil)), ⟨2, 2, 0⟩, ?_, ?_⟩⟩
  · intro f hf cs n hcs hc
    have := triangle_corners hf hcs
    subst this
    rw [Face.square_normal hc]
    refine ⟨.inr (by rw [he]; norm_num [Vec3.dot_def]), fun hin => ?_⟩
    have := Face.square_convex.flat_face (p := ⟨0, 0, 0⟩) (by simp [Face.square]) hin
    norm_num [Vec3.dot_def] at this
  · intro i j a b hij ha hb
    right
    have hl : ∀ d : Vec3 ℝ, ∀ k : ℝ, 0 < k → d.dot d = k * k → unit d = d.scale k⁻¹ := by
      intro d k hk hd
      unfold unit
      have : d.len = k := by show Real.sqrt _ = k; rw [hd, Real.sqrt_mul_self hk.le]
      rw [this]
    unfold CleanLine
    simp only [List.mem_cons, Prod.mk.injEq, List.not_mem_nil, or_false] at hij
    rcases hij with ⟨rfl, rfl⟩ | ⟨rfl, rfl⟩ | ⟨rfl, rfl⟩ <;> simp [Face.square] at ha hb <;> subst ha hb
    · rw [hl _ 8 (by norm_num) (by norm_num [Vec3.dot_def]), he]
      norm_num [lineA, lineB, lineC, Vec3.dot_def]
    · rw [hl _ 10 (by norm_num) (by norm_num [Vec3.dot_def]), he]
      norm_num [lineA, lineB, lineC, Vec3.dot_def]
    · rw [hl _ 6 (by norm_num) (by norm_num [Vec3.dot_def]), he]
      norm_num [lineA, lineB, lineC, Vec3.dot_def]
  · intro p hp
    right
    simp only [Face.square, List.mem_cons, List.not_mem_nil, or_false] at hp
    refine ⟨?_, ?_⟩
    · rw [he]; norm_num [Vec3.dot_def]
    · rw [he]
      rcases hp with rfl | rfl | rfl <;> norm_num [discriminant, Vec3.dot_def]
  · rw [he]; norm_num
  · intro a b hf
    rcases follows_triangle.mp hf with ⟨rfl, rfl⟩ | ⟨rfl, rfl⟩ | ⟨rfl, rfl⟩ <;> norm_num [side, Vec3.dot_def]
  · intro p hp
    simp only [Face.square, List.mem_cons, List.not_mem_nil, or_false] at hp
    rcases hp with rfl | rfl | rfl <;> norm_num [Vec3.dot_def]
  · intro p hp
    rw [inBall_iff (by norm_num)]
    simp only [Face.square, List.mem_cons, List.not_mem_nil, or_false] at hp
    rcases hp with rfl | rfl | rfl <;> norm_num [Vec3.dot_def]
  · rw [inFace_moved]
    have : (⟨2, 2, 0⟩ : Vec3 ℝ) - (Vec3.o).scale (1 / 2) = ⟨2, 2, 0⟩ := by ext <;> simp
    rw [this]; exact Face.square_middle
  · rw [inBall_iff (by norm_num)]; norm_num [along, Vec3.dot_def]

end Fluffy.Props
