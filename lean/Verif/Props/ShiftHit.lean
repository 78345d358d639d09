import Verif.Num.Shift
import Verif.Props.Times
/-
C71, first part: the contact between two bodies does not depend on where the bodies are.  Moving both by the same vector moves the
reported point by that vector and leaves times and normal alone.
-/
set_option linter.unusedSectionVars false
set_option linter.unusedSimpArgs false
namespace Fluffy
open XReal

/-- The contact moved along. -/
noncomputable def Collision.shift (d : Vec3 ℝ) (c : Collision XReal) : Collision XReal := { c with position := c.position + d.f }

namespace Props
variable (d : Vec3 ℝ)

@[simp] theorem shift_times (c : Collision XReal) : (c.shift d).times = c.times := rfl
@[simp] theorem shift_normal (c : Collision XReal) : (c.shift d).normal = c.normal := rfl
theorem shift_flip (c : Collision XReal) : (c.shift d).flip = c.flip.shift d := rfl

theorem inStep_fin {c : Collision XReal} (h : InStep c) : ∃ t, c.times.min = fin t := by
  obtain ⟨-, h0, h1, h2⟩ := h
  cases hc : c.times.min with
  | nan => rw [hc] at h0; simp at h0
  | fin t => exact ⟨t, rfl⟩
  | negInf => rw [hc] at h0; simp at h0
  | posInf =>
    rw [hc] at h1
    cases hm : c.times.max with
    | nan => rw [hm] at h1; simp at h1
    | fin t => rw [hm] at h1; simp at h1
    | negInf => rw [hm] at h1; simp at h1
    | posInf => rw [hm] at h2; simp at h2

/-! ### Spheres -/

theorem overlap_shift {n : Vec3 XReal} (hn : n.Tame) (r : XReal) (c m p v : Vec3 XReal) (b : Bool) :
    spherePlaneOverlapTime r (c + d.f) m (p + d.f) n v b = spherePlaneOverlapTime r c m p n v b := by
  unfold spherePlaneOverlapTime
  rcases hn.cases with ⟨u, rfl⟩ | hnan
  · simp only [Vec3.shift_add, Vec3.dot_shift, Range.range_shift]
    have hb : (if b = true then -Scalar.inf else p.dot u.f + fin (d.dot u)) = (if b = true then -Scalar.inf else p.dot u.f) + fin (d.dot u) := by
      cases b <;> simp
    rw [hb, Range.range_shift, Range.linearOverlap_shift]
  · simp only [hnan]

theorem spherePlane_shift {n : Vec3 XReal} (hn : n.Tame) (r : XReal) (c m p v : Vec3 XReal) :
    collideSpherePlane r (c + d.f) m (p + d.f) n v = (collideSpherePlane r c m p n v).map (Collision.shift d) := by
  unfold collideSpherePlane
  simp only [overlap_shift d hn, Vec3.shift_add]
  split <;> rfl

theorem two_radii {x y : Vec3 XReal} {r s : XReal} (h : r + s ≠ fin 0) :
    ((x + d.f).scale s + (y + d.f).scale r).scale (fin 1 / (r + s)) = (x.scale s + y.scale r).scale (fin 1 / (r + s)) + d.f := by
  have hinf : ∀ (k : XReal) (a b p q : XReal), (k = posInf ∨ k = negInf) → (a * k + b) * fin 0 = nan := by
    intro k a b p q hk
    have h0 : ∀ z : XReal, (z = nan ∨ z = posInf ∨ z = negInf) → z * fin 0 = nan := by
      rintro z (rfl | rfl | rfl)
      · simp
      · show infSign 0 = nan; simp [infSign]
      · show infSign (-0) = nan; simp [infSign]
    have h1 : a * k = nan ∨ a * k = posInf ∨ a * k = negInf := by
      have hs : ∀ z, infSign z = nan ∨ infSign z = posInf ∨ infSign z = negInf := by
        intro z; unfold infSign; split <;> [simp; split <;> simp]
      rcases hk with rfl | rfl <;> cases a <;>
        first
        | exact .inl rfl
        | exact .inr (.inl rfl)
        | exact .inr (.inr rfl)
        | exact hs _
    apply h0
    rcases h1 with h1 | h1 | h1 <;> rw [h1] <;> cases b <;> simp
  have hcm : ∀ (k : XReal) (a b : XReal), (k = posInf ∨ k = negInf) → (b + a * k) * fin 0 = nan := by
    intro k a b hk; rw [XReal.add_cm]; exact hinf k a b a b hk
  have hone : ∀ (x y a : XReal) (δ : ℝ), ((x + fin δ) * s + (y + fin δ) * r) * (fin 1 / (r + s)) = (x * s + y * r) * (fin 1 / (r + s)) + fin δ := by
    intro x y a δ
    cases hr : r with
    | nan => simp
    | posInf =>
      cases hs : s with
      | nan => simp
      | negInf => simp
      | posInf => simp only [posInf_add_posInf, fin_div_posInf]; rw [hinf _ _ _ x x (.inl rfl), hinf _ _ _ x x (.inl rfl)]; simp
      | fin b => simp only [posInf_add_fin, fin_div_posInf]; rw [hcm _ _ _ (.inl rfl), hcm _ _ _ (.inl rfl)]; simp
    | negInf =>
      cases hs : s with
      | nan => simp
      | posInf => simp
      | negInf => simp only [negInf_add_negInf, fin_div_negInf]; rw [hinf _ _ _ x x (.inr rfl), hinf _ _ _ x x (.inr rfl)]; simp
      | fin b => simp only [negInf_add_fin, fin_div_negInf]; rw [hcm _ _ _ (.inr rfl), hcm _ _ _ (.inr rfl)]; simp
    | fin a =>
      cases hs : s with
      | nan => simp
      | posInf => simp only [fin_add_posInf, fin_div_posInf]; rw [hinf _ _ _ x x (.inl rfl), hinf _ _ _ x x (.inl rfl)]; simp
      | negInf => simp only [fin_add_negInf, fin_div_negInf]; rw [hinf _ _ _ x x (.inr rfl), hinf _ _ _ x x (.inr rfl)]; simp
      | fin b =>
        have hab : a + b ≠ 0 := by intro hc; apply h; rw [hr, hs, fin_add, hc]
        simp only [fin_add, fin_div hab, shift_mul_fin]
        rw [show ∀ p q e g : XReal, p + q + (e + g) = p + e + (q + g) by intro p q e g; ac_rfl, fin_add, shift_mul_fin]
        congr 2
        field_simp
        ring
  ext <;> exact hone _ _ (fin 0) _

theorem sphereSphere_shift {r s : XReal} (h : r + s ≠ fin 0) (c m p v : Vec3 XReal) :
    collideSphereSphere r (c + d.f) m s (p + d.f) v = (collideSphereSphere r c m s p v).map (Collision.shift d) := by
  unfold collideSphereSphere
  simp only [Vec3.shift_sub_shift, Vec3.shift_add, one_eq, two_radii d h]
  split <;> rfl

theorem sphereLine_shift (r : XReal) (c m p q v : Vec3 XReal) :
    collideSphereLine r (c + d.f) m (p + d.f) q v = (collideSphereLine r c m p q v).map (Collision.shift d) := by
  unfold collideSphereLine
  simp only [Vec3.shift_sub_shift, Vec3.shift_add]
  split <;> rfl

theorem sphereSegment_shift (r : XReal) (c m p q v : Vec3 XReal) :
    collideSphereMidSegment r (c + d.f) m (p + d.f) (q + d.f) v = (collideSphereMidSegment r c m p q v).map (Collision.shift d) := by
  unfold collideSphereMidSegment
  simp only [Vec3.shift_sub_shift, sphereLine_shift]
  cases collideSphereLine r c m p (q - p) v with
  | none => rfl
  | some hit =>
    simp only [Option.map_some, shift_times, Vec3.shift_add]
    have h1 : ∀ x : Vec3 XReal, x + d.f - (hit.shift d).position = x - hit.position := fun x => Vec3.shift_sub_shift _ _ _
    simp only [h1]
    split <;> rfl

theorem cyclicPairs_shift {τ σ : Type} (g : τ → σ) (l : List τ) : cyclicPairs (l.map g) = (cyclicPairs l).map (Prod.map g g) := by
  unfold cyclicPairs
  rw [← List.map_drop, ← List.map_take, ← List.map_append, List.zip_map]

theorem insideLoop_shift (h n s : Vec3 XReal) : ∀ (l : List (Vec3 XReal × Vec3 XReal)) (e : XReal),
    insideLoop (h + d.f) n s (l.map (Prod.map (· + d.f) (· + d.f))) e = insideLoop h n s l e
  | [], _ => rfl
  | (a, b) :: rest, e => by
    simp only [List.map_cons, insideLoop, Prod.map]
    simp only [Vec3.shift_add, Vec3.shift_sub_shift, insideLoop_shift h n s rest]

theorem spherePolygon_shift (r : XReal) (c m : Vec3 XReal) (ps : List (Vec3 XReal)) (v : Vec3 XReal) :
    collideSpherePolygon r (c + d.f) m (ps.map (· + d.f)) v = (collideSpherePolygon r c m ps v).map (Option.map (Collision.shift d)) := by
  match ps with
  | [] => rfl
  | [_] => rfl
  | [_, _] => rfl
  | c0 :: c1 :: c2 :: rest =>
    have hp : cyclicPairs ((c0 + d.f) :: (c1 + d.f) :: (c2 + d.f) :: rest.map (· + d.f)) =
      (cyclicPairs (c0 :: c1 :: c2 :: rest)).map (Prod.map (· + d.f) (· + d.f)) := cyclicPairs_shift (· + d.f) (c0 :: c1 :: c2 :: rest)
    unfold collideSpherePolygon
    simp only [List.map_cons, Vec3.shift_sub_shift, overlap_shift d (Vec3.tame_normalize _), Vec3.shift_add, hp]
    generalize ((c1 - c0).cross (c2 - c0)).normalize = n
    generalize (spherePlaneOverlapTime r c m c0 n v false).intersect unitRange = t
    generalize (c + m.scale t.min) = x
    generalize n.scale ((x - (c0 + v.scale t.min)).dot n) = y
    rw [Vec3.shift_sub x y d, Vec3.shift_sub_shift, insideLoop_shift]
    split
    · split <;> rfl
    · rfl

/-! ### Sphere and mesh -/

/-- The accumulator moved along. -/
noncomputable def shiftAcc (a : Earliest XReal) : Earliest XReal := ⟨a.earliest.map (Collision.shift d), a.earliestTime⟩
theorem consider_shift (a : Earliest XReal) (c : Option (Collision XReal)) :
    (shiftAcc d a).consider (c.map (Collision.shift d)) = shiftAcc d (a.consider c) := by
  cases c with
  | none => rfl
  | some c =>
    simp only [Option.map_some, Earliest.consider, shift_times]
    simp only [shiftAcc]
    by_cases h : Scalar.lt c.times.min a.earliestTime = true <;> simp [h]
theorem new_shift : shiftAcc d Earliest.new = Earliest.new := rfl

theorem vertices_shift {r : XReal} (hr : r ≠ fin 0) (c m v : Vec3 XReal) : ∀ (l : List (Vec3 XReal)) (a : Earliest XReal),
    considerVertices r (c + d.f) m v (l.map (· + d.f)) (shiftAcc d a) = shiftAcc d (considerVertices r c m v l a)
  | [], _ => rfl
  | p :: l, a => by
    simp only [List.map_cons, considerVertices]
    rw [sphereSphere_shift d (by simpa using hr), consider_shift, vertices_shift hr c m v l]

theorem index_map {τ σ : Type} (g : τ → σ) (l : List τ) (i : Nat) : index (l.map g) i = (index l i).map g := by
  unfold index
  rw [List.getElem?_map]
  cases l[i]? <;> rfl

theorem edges_shift (r : XReal) (c m v : Vec3 XReal) (vs : List (Vec3 XReal)) : ∀ (l : List (Nat × Nat)) (a : Earliest XReal),
    considerEdges r (c + d.f) m (vs.map (· + d.f)) v l (shiftAcc d a) = (considerEdges r c m vs v l a).map (shiftAcc d)
  | [], _ => rfl
  | (i, j) :: l, a => by
    simp only [considerEdges, index_map]
    cases index vs i with
    | error e => rfl
    | ok p =>
      cases index vs j with
      | error e => rfl
      | ok q =>
        show considerEdges r (c + d.f) m (vs.map (· + d.f)) v l ((shiftAcc d a).consider (collideSphereMidSegment r (c + d.f) m (p + d.f) (q + d.f) v)) =
          (considerEdges r c m vs v l (a.consider (collideSphereMidSegment r c m p q v))).map (shiftAcc d)
        rw [sphereSegment_shift, consider_shift, edges_shift r c m v vs l]

theorem faceCorners_map (g : Vec3 XReal → Vec3 XReal) (vs : List (Vec3 XReal)) : ∀ l : List Nat, faceCorners (vs.map g) l = (faceCorners vs l).map (List.map g)
  | [] => rfl
  | i :: l => by
    simp only [faceCorners, index_map, faceCorners_map g vs l]
    cases index vs i with
    | error e => rfl
    | ok p => cases faceCorners vs l <;> rfl

theorem faces_shift (r : XReal) (c m v : Vec3 XReal) (vs : List (Vec3 XReal)) : ∀ (l : List (List Nat)) (a : Earliest XReal),
    considerFaces r (c + d.f) m (vs.map (· + d.f)) v l (shiftAcc d a) = (considerFaces r c m vs v l a).map (shiftAcc d)
  | [], _ => rfl
  | f :: l, a => by
    simp only [considerFaces, faceCorners_map]
    cases faceCorners vs f with
    | error e => rfl
    | ok ps =>
      show (collideSpherePolygon r (c + d.f) m (ps.map (· + d.f)) v >>= fun x => considerFaces r (c + d.f) m (vs.map (· + d.f)) v l ((shiftAcc d a).consider x)) =
          ((collideSpherePolygon r c m ps v) >>= fun x => considerFaces r c m vs v l (a.consider x)).map (shiftAcc d)
      rw [spherePolygon_shift]
      cases collideSpherePolygon r c m ps v with
      | error e => rfl
      | ok o =>
        show considerFaces r (c + d.f) m (vs.map (· + d.f)) v l ((shiftAcc d a).consider (o.map (Collision.shift d))) =
          (considerFaces r c m vs v l (a.consider o)).map (shiftAcc d)
        rw [consider_shift, faces_shift r c m v vs l]

theorem sphereMesh_shift {r : XReal} (hr : r ≠ fin 0) (c m v : Vec3 XReal) (vs : List (Vec3 XReal)) (es : List (Nat × Nat)) (fs : List (List Nat)) :
    collideSphereMesh r (c + d.f) m (vs.map (· + d.f)) es fs v = (collideSphereMesh r c m vs es fs v).map (Option.map (Collision.shift d)) := by
  unfold collideSphereMesh
  have h := vertices_shift d hr c m v vs Earliest.new
  rw [new_shift] at h
  dsimp only
  rw [h, edges_shift]
  cases considerEdges r c m vs v es (considerVertices r c m v vs Earliest.new) with
  | error e => rfl
  | ok a =>
    show (considerFaces r (c + d.f) m (vs.map (· + d.f)) v fs (shiftAcc d a) >>= fun a => .ok a.earliest) = _
    rw [faces_shift]
    show _ = (considerFaces r c m vs v fs a >>= fun a => .ok a.earliest).map _
    cases considerFaces r c m vs v fs a <;> rfl

/-! ### Mesh and plane -/

theorem closest_shift (ε least : XReal) : ∀ (l : List (Vec3 XReal × XReal)) (sum : Vec3 XReal) (n : ℕ), (n = 0 → sum = Vec3.zeros) →
    closestAverage ε least (l.map (fun x => (x.1 + d.f, x.2))) (sum + (d.scale n).f) (fin n) = closestAverage ε least l sum (fin n) + d.f
  | [], sum, n, h => by
    simp only [List.map_nil, closestAverage]
    by_cases hn : n = 0
    · rw [h hn]
      subst hn
      have h0 : ∀ x : ℝ, (fin 0 + fin (x * ((0 : ℕ) : ℝ))) / fin ((0 : ℕ) : ℝ) = fin 0 / fin ((0 : ℕ) : ℝ) + fin x := by
        intro x; simp [fin_div', infSign]
      rw [Vec3.f_zeros]
      ext <;> exact h0 _
    · have hn' : (n : ℝ) ≠ 0 := by exact_mod_cast hn
      rw [Vec3.shift_unscale _ _ _ hn', Vec3.scale_scale, mul_inv_cancel₀ hn', Vec3.scale_one]
  | (p, x) :: l, sum, n, h => by
    simp only [List.map_cons, closestAverage]
    split
    · rw [show sum + (d.scale n).f + (p + d.f) = sum + p + ((d.scale n).f + d.f) by ac_rfl, Vec3.f_add,
        show d.scale n + d = d.scale ((n + 1 : ℕ) : ℝ) by ext <;> simp <;> ring,
        show (fin n + one : XReal) = fin ((n + 1 : ℕ) : ℝ) by simp]
      exact closest_shift ε least l _ (n + 1) (by omega)
    · exact closest_shift ε least l sum n h
theorem closest_shift' (ε least : XReal) (l : List (Vec3 XReal × XReal)) :
    closestAverage ε least (l.map (fun x => (x.1 + d.f, x.2))) Vec3.zeros zero = closestAverage ε least l Vec3.zeros zero + d.f := by
  have h := closest_shift d ε least l Vec3.zeros 0 (fun _ => rfl)
  have hz : (Vec3.zeros : Vec3 XReal) + (d.scale ((0 : ℕ) : ℝ)).f = Vec3.zeros := by
    rw [Nat.cast_zero, Vec3.scale_zero]; ext <;> exact add_fin_zero _
  have hf : (fin ((0 : ℕ) : ℝ) : XReal) = zero := by simp
  rwa [hz, hf] at h

theorem mix_shift {x y : Vec3 XReal} (t : ℝ) :
    (x + d.f).scale (one - fin t) + (y + d.f).scale (fin t) = x.scale (one - fin t) + y.scale (fin t) + d.f := by
  simp only [one_eq, fin_sub]
  rw [Vec3.shift_scale, Vec3.shift_scale,
    show ∀ a b c e : Vec3 XReal, a + b + (c + e) = a + c + (b + e) by intro a b c e; ac_rfl, Vec3.f_add]
  congr 2
  ext <;> simp <;> ring

theorem meshPlane_shift {o e : Orientation XReal} (ho : o.rotation.Ok) (he : e.rotation.Ok) (vs : List (Vec3 XReal)) (m a b n : Vec3 XReal) :
    collideMeshPlane vs m (o.shift d) (e.shift d) (a + d.f) (b + d.f) n = (collideMeshPlane vs m o e a b n).map (Collision.shift d) := by
  have hi : ∀ v, meshInfo m (o.shift d) (e.shift d) (a + d.f) (b + d.f) n v =
      ⟨(meshInfo m o e a b n v).startPosition + d.f, (meshInfo m o e a b n v).endPosition + d.f, (meshInfo m o e a b n v).startDistance,
        (meshInfo m o e a b n v).endDistance⟩ := by
    intro v
    unfold meshInfo
    simp only [Orientation.positionIntoWorld_shift d o _ ho, Orientation.positionIntoWorld_shift d e _ he, Vec3.shift_sub_shift]
  have h1 : (vs.map (meshInfo m (o.shift d) (e.shift d) (a + d.f) (b + d.f) n)).map (·.startDistance) = (vs.map (meshInfo m o e a b n)).map (·.startDistance) := by
    rw [List.map_map, List.map_map]; exact List.map_congr_left (fun v _ => by simp [hi])
  have h2 : (vs.map (meshInfo m (o.shift d) (e.shift d) (a + d.f) (b + d.f) n)).map (·.endDistance) = (vs.map (meshInfo m o e a b n)).map (·.endDistance) := by
    rw [List.map_map, List.map_map]; exact List.map_congr_left (fun v _ => by simp [hi])
  have h3 : (vs.map (meshInfo m (o.shift d) (e.shift d) (a + d.f) (b + d.f) n)).map (fun i => (i.startPosition, i.startDistance)) =
      ((vs.map (meshInfo m o e a b n)).map (fun i => (i.startPosition, i.startDistance))).map (fun x => (x.1 + d.f, x.2)) := by
    rw [List.map_map, List.map_map, List.map_map]; exact List.map_congr_left (fun v _ => by simp [hi])
  have h4 : (vs.map (meshInfo m (o.shift d) (e.shift d) (a + d.f) (b + d.f) n)).map (fun i => (i.endPosition, i.endDistance)) =
      ((vs.map (meshInfo m o e a b n)).map (fun i => (i.endPosition, i.endDistance))).map (fun x => (x.1 + d.f, x.2)) := by
    rw [List.map_map, List.map_map, List.map_map]; exact List.map_congr_left (fun v _ => by simp [hi])
  unfold collideMeshPlane
  simp only [h1, h2, h3, h4, closest_shift']
  split
  · rename_i hne
    obtain ⟨t, ht⟩ := inStep_fin (inStep_of_unit (p := Vec3.zeros) (n := Vec3.zeros) (by rw [hne]; simp))
    simp only at ht
    rw [ht, mix_shift]
    simp only [Option.map_some, Collision.shift]
  · rfl

/-! ### Mesh and mesh -/

theorem polygonLoop_shift : ∀ l : List (Vec3 XReal × Vec3 XReal × Vec3 XReal),
    polygonNormalLoop (l.map (Prod.map (· + d.f) (Prod.map (· + d.f) (· + d.f)))) = polygonNormalLoop l
  | [] => rfl
  | (a, b, c) :: l => by
    simp only [List.map_cons, Prod.map, polygonNormalLoop, Vec3.shift_sub_shift]
    split
    · rfl
    · exact polygonLoop_shift l
theorem polygonNormal_shift (ps : List (Vec3 XReal)) : polygonNormal (ps.map (· + d.f)) = polygonNormal ps := by
  unfold polygonNormal
  dsimp only
  rw [List.length_map, ← List.map_drop, ← List.map_take, ← List.map_append, ← List.map_drop, ← List.map_take, ← List.map_append,
    List.zip_map, List.zip_map, polygonLoop_shift]

theorem along_shift (a b n : Vec3 XReal) : ∀ (l : List (Vec3 XReal × Vec3 XReal)) (t : XReal) (p q : Vec3 XReal),
    (Scalar.le t one = true → q = p + d.f) →
    (alongPlaneLoop (a + d.f) (b + d.f) n (l.map (Prod.map (· + d.f) (· + d.f))) t q).1 = (alongPlaneLoop a b n l t p).1 ∧
    (Scalar.le (alongPlaneLoop a b n l t p).1 one = true →
      (alongPlaneLoop (a + d.f) (b + d.f) n (l.map (Prod.map (· + d.f) (· + d.f))) t q).2 = (alongPlaneLoop a b n l t p).2 + d.f)
  | [], t, p, q, h => ⟨rfl, h⟩
  | (x, y) :: l, t, p, q, h => by
    simp only [List.map_cons, Prod.map, alongPlaneLoop, Vec3.shift_sub_shift, Vec3.shift_add]
    split
    · exact along_shift a b n l t p q h
    · split
      · exact along_shift a b n l t p q h
      · split
        · exact along_shift a b n l _ _ _ (fun _ => rfl)
        · exact along_shift a b n l t p q h

theorem pointInside_shift (x n : Vec3 XReal) : ∀ (l : List (Vec3 XReal × Vec3 XReal)) (e : XReal),
    pointInsideLoop (x + d.f) n (l.map (Prod.map (· + d.f) (· + d.f))) e = pointInsideLoop x n l e
  | [], _ => rfl
  | (a, b) :: l, e => by
    simp only [List.map_cons, Prod.map, pointInsideLoop, Vec3.shift_sub_shift, pointInside_shift x n l]

theorem pointPolygon_shift (a b : Vec3 XReal) (ps : List (Vec3 XReal)) :
    collidePointPolygon (a + d.f) (b + d.f) (ps.map (· + d.f)) = (collidePointPolygon a b ps).map (Option.map (Collision.shift d)) := by
  unfold collidePointPolygon
  simp only [polygonNormal_shift, index_map, cyclicPairs_shift, Vec3.shift_sub_shift, Vec3.shift_add]
  cases polygonNormal ps with
  | error e => rfl
  | ok n =>
    cases index ps 0 with
    | error e => rfl
    | ok p =>
      simp only [Res.ok_bind]
      show (if (pointIsOnPlane (a + d.f) n (p + d.f) && pointIsOnPlane (b + d.f) n (p + d.f)) = true then _ else _) = _
      have h1 : ∀ x, pointIsOnPlane (x + d.f) n (p + d.f) = pointIsOnPlane x n p := by
        intro x; unfold pointIsOnPlane; rw [Vec3.shift_sub_shift]
      have h2 : orientNormal (a + d.f) (b + d.f) (p + d.f) n = orientNormal a b p n := by
        unfold orientNormal; simp only [Vec3.shift_sub_shift]
      have h3 := along_shift d a b n (cyclicPairs ps) two Vec3.zeros Vec3.zeros (by simp)
      simp only [h1, h2, Vec3.shift_sub_shift, pointInside_shift, h3.1]
      split
      · split
        · rename_i h; rw [h3.2 h]; rfl
        · rfl
      · split
        · rfl
        · split <;> rfl

theorem meshPairs_shift {o e : Orientation XReal} (ho : o.rotation.Ok) (he : e.rotation.Ok) (m : MeshCollider XReal) :
    meshPointPairs m (o.shift d) (e.shift d) = (meshPointPairs m o e).map (Prod.map (· + d.f) (· + d.f)) := by
  unfold meshPointPairs
  rw [List.map_map]
  exact List.map_congr_left (fun v _ => by
    simp [Orientation.positionIntoWorld_shift d o _ ho, Orientation.positionIntoWorld_shift d e _ he])

theorem midFace_shift (ps : List (Vec3 XReal × Vec3 XReal)) : ∀ l : List Nat,
    midFace (ps.map (Prod.map (· + d.f) (· + d.f))) l = (midFace ps l).map (List.map (· + d.f))
  | [] => rfl
  | i :: l => by
    simp only [midFace, index_map, midFace_shift ps l]
    cases index ps i with
    | error e => rfl
    | ok p =>
      cases midFace ps l with
      | error e => rfl
      | ok qs =>
        show Except.ok ((p.1 + d.f + (p.2 + d.f)).unscale two :: qs.map (· + d.f)) = Except.ok (((p.1 + p.2).unscale two + d.f) :: qs.map (· + d.f))
        rw [show p.1 + d.f + (p.2 + d.f) = p.1 + p.2 + (d.f + d.f) by ac_rfl, Vec3.f_add, two_eq, Vec3.shift_unscale _ _ _ two_ne_zero,
          show (d + d).scale 2⁻¹ = d by ext <;> simp <;> ring]

theorem pointFaces_shift (p : Vec3 XReal × Vec3 XReal) (qs : List (Vec3 XReal × Vec3 XReal)) : ∀ (l : List (List Nat)) (a : Earliest XReal),
    pointAgainstFaces (Prod.map (· + d.f) (· + d.f) p) (qs.map (Prod.map (· + d.f) (· + d.f))) l (shiftAcc d a) = (pointAgainstFaces p qs l a).map (shiftAcc d)
  | [], _ => rfl
  | f :: l, a => by
    simp only [pointAgainstFaces, midFace_shift]
    cases midFace qs f with
    | error e => rfl
    | ok ps =>
      show (collidePointPolygon (p.1 + d.f) (p.2 + d.f) (ps.map (· + d.f)) >>= fun c => pointAgainstFaces _ _ l ((shiftAcc d a).consider c)) =
        (collidePointPolygon p.1 p.2 ps >>= fun c => pointAgainstFaces p qs l (a.consider c)).map (shiftAcc d)
      rw [pointPolygon_shift]
      cases collidePointPolygon p.1 p.2 ps with
      | error e => rfl
      | ok o =>
        show pointAgainstFaces _ _ l ((shiftAcc d a).consider (o.map (Collision.shift d))) = (pointAgainstFaces p qs l (a.consider o)).map (shiftAcc d)
        rw [consider_shift, pointFaces_shift p qs l]

theorem pointsFaces_shift (qs : List (Vec3 XReal × Vec3 XReal)) (fs : List (List Nat)) : ∀ (l : List (Vec3 XReal × Vec3 XReal)) (a : Earliest XReal),
    pointsAgainstFaces (qs.map (Prod.map (· + d.f) (· + d.f))) fs (l.map (Prod.map (· + d.f) (· + d.f))) (shiftAcc d a) = (pointsAgainstFaces qs fs l a).map (shiftAcc d)
  | [], _ => rfl
  | p :: l, a => by
    simp only [List.map_cons, pointsAgainstFaces, pointFaces_shift]
    cases pointAgainstFaces p qs fs a with
    | error e => rfl
    | ok b => exact pointsFaces_shift qs fs l b

theorem behind_shift {c : Collision XReal} {t : ℝ} (ht : c.times.min = fin t) (p : Vec3 XReal × Vec3 XReal) :
    behindContact (c.shift d) (Prod.map (· + d.f) (· + d.f) p) = behindContact c p := by
  unfold behindContact
  simp only [shift_times, ht, Prod.map, mix_shift, shift_normal]
  rw [show (c.shift d).position = c.position + d.f from rfl, Vec3.shift_sub_shift]

theorem meshPointsFaces_shift (a : Earliest XReal) (ps qs : List (Vec3 XReal × Vec3 XReal)) (m : MeshCollider XReal) (k : XReal) :
    collideMeshPointsFaces (shiftAcc d a) (ps.map (Prod.map (· + d.f) (· + d.f))) m (qs.map (Prod.map (· + d.f) (· + d.f))) k =
      (collideMeshPointsFaces a ps m qs k).map (shiftAcc d) := by
  unfold collideMeshPointsFaces
  rw [← new_shift d, pointsFaces_shift, new_shift]
  cases hb : pointsAgainstFaces qs m.faces ps Earliest.new with
  | error e => rfl
  | ok b =>
    have hin := in_pointsFaces ps _ _ AccIn.new hb
    simp only [Except.map, Res.ok_bind]
    cases he : b.earliest with
    | none => simp [shiftAcc, he]
    | some c =>
      obtain ⟨t, ht⟩ := inStep_fin (hin c he)
      simp only [shiftAcc, he, Option.map_some]
      have h1 : ∀ f : Vec3 XReal × Vec3 XReal → Bool, ∀ g : Vec3 XReal × Vec3 XReal → Bool, (∀ p, f (Prod.map (· + d.f) (· + d.f) p) = g p) →
          ((ps.map (Prod.map (· + d.f) (· + d.f))).filter f).length = (ps.filter g).length := by
        intro f g hfg
        rw [List.filter_map, List.length_map]
        congr 1
        exact List.filter_congr (fun p _ => hfg p)
      rw [h1 _ _ (behind_shift d ht), h1 (fun p => !behindContact (c.shift d) p) (fun p => !behindContact c p) (fun p => by rw [behind_shift d ht])]
      have hc : ∀ n, ({ c.shift d with normal := n } : Collision XReal) = ({ c with normal := n } : Collision XReal).shift d := fun n => rfl
      have := consider_shift d a (some { c with normal := (if (ps.filter (behindContact c)).length > (ps.filter (fun p => !behindContact c p)).length then c.normal.scale (lit (-1) 1) else c.normal).scale k })
      exact congrArg Except.ok this

theorem meshMesh_shift {o1 e1 o2 e2 : Orientation XReal} (h1 : o1.rotation.Ok) (h2 : e1.rotation.Ok) (h3 : o2.rotation.Ok) (h4 : e2.rotation.Ok)
    (m1 m2 : MeshCollider XReal) :
    collideMeshMesh m1 (o1.shift d) (e1.shift d) m2 (o2.shift d) (e2.shift d) = (collideMeshMesh m1 o1 e1 m2 o2 e2).map (Option.map (Collision.shift d)) := by
  unfold collideMeshMesh
  simp only [meshPairs_shift d h1 h2, meshPairs_shift d h3 h4]
  rw [← new_shift d, meshPointsFaces_shift, new_shift]
  cases collideMeshPointsFaces Earliest.new (meshPointPairs m1 o1 e1) m2 (meshPointPairs m2 o2 e2) (lit (-1) 1) with
  | error e => rfl
  | ok a =>
    simp only [Except.map, Res.ok_bind]
    rw [meshPointsFaces_shift]
    cases collideMeshPointsFaces a (meshPointPairs m2 o2 e2) m1 (meshPointPairs m1 o1 e1) one <;> rfl

/-! ### Everything -/

/-- No sphere of radius zero and no plane with an infinite normal; nothing is asked of meshes and boxes. -/
def TameShape : Collider XReal → Prop
  | .sphere s => s.radius ≠ fin 0 ∧ ∀ r : ℝ, s.radius = fin r → 0 < r
  | .plane p => p.normal.Tame
  | _ => True

theorem sphereBox_shift {o1 e1 o2 e2 : Orientation XReal} (h1 : o1.rotation.Ok) (h2 : e1.rotation.Ok) (h3 : o2.rotation.Ok) (h4 : e2.rotation.Ok)
    (s : SphereCollider XReal) (b : BoxCollider XReal) :
    dispatchSphereBox s (o1.shift d) (e1.shift d) b (o2.shift d) (e2.shift d) = (dispatchSphereBox s o1 e1 b o2 e2).map (Option.map (Collision.shift d)) := by
  unfold dispatchSphereBox
  simp only [Orientation.positionIntoWorld_shift d _ _ h1, Orientation.positionIntoWorld_shift d _ _ h2, Orientation.positionIntoLocal_shift d _ _ h3,
    Orientation.positionIntoLocal_shift d _ _ h4]
  cases hr : collideSphereBox s.radius (o2.positionIntoLocal (o1.positionIntoWorld s.center))
      (e2.positionIntoLocal (e1.positionIntoWorld s.center) - o2.positionIntoLocal (o1.positionIntoWorld s.center)) b.minCorner b.maxCorner with
  | error e => rfl
  | ok r =>
    simp only [Res.ok_bind, Except.map]
    cases r with
    | none => rfl
    | some c =>
      have hin : InStep c := by
        have := in_sphereBox (s := s) (b := b) (o1 := o1) (o2 := e1) (o3 := o2) (o4 := e2) (o := some (c.transformOutOf o2 e2)) (by
          unfold dispatchSphereBox; simp only [hr]; rfl) _ rfl
        exact this.of_times rfl
      obtain ⟨t, ht⟩ := inStep_fin hin
      simp only [Option.map_some, Collision.transformOutOf, ht, Orientation.lerp_shift]
      rw [Orientation.positionIntoWorld_shift d _ _ (by unfold Orientation.lerp; exact Quat.ok_fromScaledAxis _)]
      rfl

/-- The contact between two shapes, both moved by the same vector, is the contact moved by that vector. -/
theorem collide_shift {o1 e1 o2 e2 : Orientation XReal} (h1 : o1.rotation.Ok) (h2 : e1.rotation.Ok) (h3 : o2.rotation.Ok) (h4 : e2.rotation.Ok)
    {c1 c2 : Collider XReal} (t1 : TameShape c1) (t2 : TameShape c2) :
    collide c1 (o1.shift d) (e1.shift d) c2 (o2.shift d) (e2.shift d) = (collide c1 o1 e1 c2 o2 e2).map (Option.map (Collision.shift d)) := by
  have sp : ∀ {o1 e1 o2 e2 : Orientation XReal}, o1.rotation.Ok → e1.rotation.Ok → o2.rotation.Ok → e2.rotation.Ok → ∀ (s : SphereCollider XReal)
      (p : PlaneCollider XReal), p.normal.Tame →
      dispatchSpherePlane s (o1.shift d) (e1.shift d) p (o2.shift d) (e2.shift d) = (dispatchSpherePlane s o1 e1 p o2 e2).map (Collision.shift d) := by
    intro o1 e1 o2 e2 h1 h2 h3 h4 s p hp
    unfold dispatchSpherePlane
    simp only [Orientation.positionIntoWorld_shift d _ _ h1, Orientation.positionIntoWorld_shift d _ _ h2, Orientation.positionIntoWorld_shift d _ _ h3,
      Orientation.positionIntoWorld_shift d _ _ h4, Vec3.shift_sub_shift, spherePlane_shift d hp]
  have sm : ∀ {o1 e1 o2 e2 : Orientation XReal}, o1.rotation.Ok → e1.rotation.Ok → o2.rotation.Ok → e2.rotation.Ok → ∀ (s : SphereCollider XReal)
      (m : MeshCollider XReal), s.radius ≠ fin 0 →
      dispatchSphereMesh s (o1.shift d) (e1.shift d) m (o2.shift d) (e2.shift d) = (dispatchSphereMesh s o1 e1 m o2 e2).map (Option.map (Collision.shift d)) := by
    intro o1 e1 o2 e2 h1 h2 h3 h4 s m hs
    unfold dispatchSphereMesh
    have hv : m.verticesInWorld (o2.shift d) = (m.verticesInWorld o2).map (· + d.f) := by
      unfold MeshCollider.verticesInWorld
      rw [List.map_map]
      exact List.map_congr_left (fun v _ => by simp [Orientation.positionIntoWorld_shift d _ _ h3])
    simp only [Orientation.positionIntoWorld_shift d _ _ h1, Orientation.positionIntoWorld_shift d _ _ h2, Orientation.positionIntoWorld_shift d _ _ h3,
      Orientation.positionIntoWorld_shift d _ _ h4, Vec3.shift_sub_shift, hv, sphereMesh_shift d hs]
  have mp : ∀ {o1 e1 o2 e2 : Orientation XReal}, o1.rotation.Ok → e1.rotation.Ok → o2.rotation.Ok → e2.rotation.Ok → ∀ (m : MeshCollider XReal)
      (p : PlaneCollider XReal),
      dispatchMeshPlane m (o1.shift d) (e1.shift d) p (o2.shift d) (e2.shift d) = (dispatchMeshPlane m o1 e1 p o2 e2).map (Collision.shift d) := by
    intro o1 e1 o2 e2 h1 h2 h3 h4 m p
    unfold dispatchMeshPlane
    rw [Orientation.positionIntoWorld_shift d _ _ h3, Orientation.positionIntoWorld_shift d _ _ h4, meshPlane_shift d h1 h2]
  have fl : ∀ o : Option (Collision XReal), (o.map (Collision.shift d)).map Collision.flip = (o.map Collision.flip).map (Collision.shift d) := by
    intro o; cases o <;> rfl
  have flr : ∀ r : Res (Option (Collision XReal)), (r.map (Option.map (Collision.shift d)) >>= fun o => .ok (o.map Collision.flip)) =
      (r >>= fun o => .ok (o.map Collision.flip)).map (Option.map (Collision.shift d)) := by
    intro r
    cases r with
    | error e => rfl
    | ok o => cases o <;> rfl
  cases c1 with
  | null _ => rfl
  | sphere s =>
    cases c2 with
    | null _ => rfl
    | sphere s2 =>
      unfold collide
      simp only [Orientation.positionIntoWorld_shift d _ _ h1, Orientation.positionIntoWorld_shift d _ _ h2, Orientation.positionIntoWorld_shift d _ _ h3,
        Orientation.positionIntoWorld_shift d _ _ h4, Vec3.shift_sub_shift]
      rw [sphereSphere_shift]
      · rfl
      · intro hc
        cases ha : s.radius <;> cases hb : s2.radius <;> rw [ha, hb] at hc <;> simp at hc
        have := t1.2 _ ha
        have := t2.2 _ hb
        linarith
    | plane p => unfold collide; dsimp only; rw [sp h1 h2 h3 h4 s p t2]; rfl
    | mesh m => unfold collide; exact sm h1 h2 h3 h4 s m t1.1
    | box b => unfold collide; exact sphereBox_shift d h1 h2 h3 h4 s b
  | plane p =>
    cases c2 with
    | sphere s => unfold collide; dsimp only; rw [sp h3 h4 h1 h2 s p t1, fl]; rfl
    | mesh m => unfold collide; dsimp only; rw [mp h3 h4 h1 h2 m p, fl]; rfl
    | null _ => rfl
    | plane _ => rfl
    | box _ => rfl
  | mesh m =>
    cases c2 with
    | sphere s => unfold collide; dsimp only; rw [sm h3 h4 h1 h2 s m t2.1]; exact flr _
    | plane p => unfold collide; dsimp only; rw [mp h1 h2 h3 h4 m p]; rfl
    | mesh m2 => unfold collide; exact meshMesh_shift d h1 h2 h3 h4 m m2
    | null _ => rfl
    | box _ => rfl
  | box b =>
    cases c2 with
    | sphere s => unfold collide; dsimp only; rw [sphereBox_shift d h3 h4 h1 h2 s b]; exact flr _
    | null _ => rfl
    | plane _ => rfl
    | mesh _ => rfl
    | box _ => rfl

end Props
end Fluffy
