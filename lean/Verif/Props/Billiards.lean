import Verif.Props.Frame
import Verif.Props.Overtake
/-
C104: two balls that collide leave with the textbook velocities.
-/
set_option linter.unusedSectionVars false
set_option linter.unusedSimpArgs false
namespace Fluffy.Props
open XReal Demo Step Scene

variable {γ : Type} [ForceGenerator XReal γ]

/-- A smooth ball of radius `R` with bounciness `r`. -/
noncomputable def pearl (R r : ℝ) : Collider XReal := .sphere ⟨none, (Vec3.o).f, fin R, fin 0, ⟨fin r, fin (1 / 4), fin 0, fin 0⟩⟩

theorem pearl_newFrom {R : ℝ} (hR : 1 / 20 < R) (r : ℝ) : (pearl R r).newFrom = some (pearl R r) := by
  have : (5 / 100 : ℝ) < R := by linarith
  simp [pearl, Collider.newFrom, SphereCollider.isValid, MINIMUM_RADIUS, this]
theorem pearl_weightless (m : XReal) (R r : ℝ) : Weightless m (pearl R r) := by
  refine Or.inl ⟨rfl, ?_, .o, rfl⟩
  simp only [pearl, Collider.momentOfInertia, lit, two_eq, fin_mul]
  have : (fin 2 / fin 5 : XReal) = fin (2 / 5) := fin_div (by norm_num)
  simp [this, Mat3.diagonal, Mat3.f, Mat3.o, Vec3.f, Vec3.o]

/-- What the search makes of two such balls. -/
theorem consider_pearls {cs : Arena (Collider XReal)} {x1 x2 : Handle} {o1 o2 : Option Handle} (R S a b : ℝ) (h1' : cs.get x1 = some ((pearl R a).setEntity o1))
    (h2' : cs.get x2 = some ((pearl S b).setEntity o2)) {e1 e2 : List Handle} (best : Option (Candidate XReal)) (m k : XReal) (p v q w : Vec3 ℝ) (y z : Nap) (l j : Vec3 ℝ) (N O : List Handle) {X : Option (Collision XReal)}
    (hX : collideSphereSphere (fin R) p.f l.f (fin S) q.f j.f = X) (hpos : ∀ C, X = some C → ∃ x : Vec3 ℝ, C.position = x.f) :
    considerPair cs (dot m p v e1 y) (dot k q w e2 z) ⟨h0, l.f, (Vec3.o).f, N⟩
      ⟨h1, j.f, (Vec3.o).f, O⟩ 0 1 x1 x2 best =
    match X with
    | none => .ok best
    | some C => if Scalar.lt ((v.f - w.f).dot C.normal) EPSILON then .ok best
      else if Scalar.lt C.times.min (percentOf best) then
        .ok (some ⟨C.times.min, C, fin (a * b), fin 0, fin 0, fin (1 / 4 * (1 / 4)), h0, h1, 0, 1⟩)
      else .ok best := by
  have hw : ∀ p : Vec3 ℝ, (pose p).f.positionIntoWorld (Vec3.o).f = p.f := by
    intro p
    rw [Orientation.f_positionIntoWorld _ _ (pose_unit p)]
    simp [Orientation.toWorld, pose]
  have hsub : ∀ p l : Vec3 ℝ, p + l - p = l := fun p l => by ext <;> simp
  have hcol : collide ((pearl R a).setEntity o1) (pose p).f ((pose p).f.afterAffected l.f (Vec3.o).f) ((pearl S b).setEntity o2)
      (pose q).f ((pose q).f.afterAffected j.f (Vec3.o).f) = .ok X := by
    rw [Orientation.f_afterAffected, Orientation.f_afterAffected, pose_after, pose_after]
    simp only [pearl, Collider.setEntity, collide, hw, Vec3.f_sub, hsub, hX]
  have hv : ∀ (m : XReal) (p v : Vec3 ℝ) (cs : List Handle) (z : Nap) (x : Vec3 XReal), (∃ x' : Vec3 ℝ, x = x'.f) → (dot m p v cs z).velocityAt x = v.f := by
    rintro m p v cs z _ ⟨x, rfl⟩
    unfold InternalEntity.velocityAt dot
    simp [pose]
  unfold considerPair
  simp only [h1', h2', unwrap, Res.ok_bind]
  have u1 : (dot m p v e1 y).orientation = (pose p).f := rfl
  have u2 : (dot k q w e2 z).orientation = (pose q).f := rfl
  rw [u1, u2, hcol]
  cases X with
  | none => rfl
  | some C =>
    simp only [Res.ok_bind, hv _ _ _ _ _ _ (hpos C rfl), pearl, Collider.setEntity, Collider.material, fin_mul, mul_zero]

theorem consider_pearl_pair (R S a b : ℝ) (m k : XReal) (p v q w : Vec3 ℝ) (y z : Nap) (l j : Vec3 ℝ) (N O : List Handle) {X : Option (Collision XReal)}
    (hX : collideSphereSphere (fin R) p.f l.f (fin S) q.f j.f = X) (hpos : ∀ C, X = some C → ∃ x : Vec3 ℝ, C.position = x.f) :
    considerPair (Scene.two ((pearl R a).setEntity (some h0)) ((pearl S b).setEntity (some h1))) (dot m p v [h0] y) (dot k q w [h1] z) ⟨h0, l.f, (Vec3.o).f, N⟩
      ⟨h1, j.f, (Vec3.o).f, O⟩ 0 1 h0 h1 none =
    match X with
    | none => .ok none
    | some C => if Scalar.lt ((v.f - w.f).dot C.normal) EPSILON then .ok none
      else if Scalar.lt C.times.min (fin 1) then
        .ok (some ⟨C.times.min, C, fin (a * b), fin 0, fin 0, fin (1 / 4 * (1 / 4)), h0, h1, 0, 1⟩)
      else .ok none := by
  rw [consider_pearls (o1 := some h0) (o2 := some h1) R S a b rfl rfl none m k p v q w y z l j N O hX hpos]
  cases X <;> simp only [percentOf, one_eq]

/-- Touching balls that do not approach: a contact is reported at once or not at all. -/
theorem touching_pearls {R S : ℝ} (hR : 0 < R) (hS : 0 < S) {p q l j : Vec3 ℝ} (hd : (p - q).dot (p - q) = (R + S) * (R + S)) (hs : 0 ≤ (l - j).dot (p - q)) :
    collideSphereSphere (fin R) p.f l.f (fin S) q.f j.f = none ∨
    ∃ C, collideSphereSphere (fin R) p.f l.f (fin S) q.f j.f = some C ∧ C.position = ((p.scale S + q.scale R).scale (1 / (R + S))).f ∧ C.normal = ((q - p).scale (1 / (R + S))).f := by
  have e3 : (p - q).dot (p - q) - (R + S) * (R + S) = 0 := by rw [hd]; ring
  have ha : 0 ≤ (l - j).dot (l - j) := by rw [Vec3.dot_def]; nlinarith [mul_self_nonneg (l - j).x, mul_self_nonneg (l - j).y, mul_self_nonneg (l - j).z]
  rcases sphereSphere_first (r1 := R) (r2 := S) (c1 := p) (m1 := l) (c2 := q) (m2 := j) (by linarith)
      (P := fun t => Holds (Range.quadraticZeros (fin ((l - j).dot (l - j))) (fin (2 * (l - j).dot (p - q))) (fin 0)) (fin t)) (fun t _ _ => by
        rw [e3]) with h | ⟨C, t, x, hC, -, hf, hx, hp, hn⟩
  · exact Or.inl h.1
  · right
    have ht : t = 0 := by
      have hb : 0 ≤ 2 * (l - j).dot (p - q) := by linarith
      revert hf hb ha
      generalize (l - j).dot (l - j) = a
      generalize 2 * (l - j).dot (p - q) = b
      intro ha hf hb
      have h0 := hf.1.1
      have hP := hf.1.2.2
      simp only at hP
      by_cases h1 : |a| < eps
      · by_cases h2 : |b| < eps
        · have : t ≤ 0 := hf.2 0 (le_refl _) (by norm_num) (((C40_degenerate a b 0 h1).1 h2 0).mpr eps_pos)
          linarith
        · rw [(C40_degenerate a b 0 h1).2 (not_lt.mp h2)] at hP
          have : b ≠ 0 := fun h => h2 (by rw [h, abs_zero]; exact eps_pos)
          rw [add_zero] at hP
          exact (mul_eq_zero.mp hP).resolve_left this
      · rw [abs_of_nonneg ha] at h1
        have h1 := not_lt.mp h1
        have hapos : 0 < a := lt_of_lt_of_le eps_pos h1
        by_cases h2 : eps ≤ b * b - 4 * a * 0
        · have h2' := (C40_quadratic_partial a b 0 h1).1 (Or.inr h2)
          have : t ≤ 0 := hf.2 0 (le_refl _) (by norm_num) ((h2' 0).mpr (by norm_num))
          linarith
        · have : Range.quadraticZeros (fin a) (fin b) (fin 0) = Range.single (fin (-1 / 2 * b / a)) := by
            unfold eps at h1 h2
            have n1 : ¬ |a| < 1 / 1000000 := by rw [abs_of_nonneg ha]; exact not_lt.mpr h1
            have n2 : b * b < 1 / 1000000 := by simpa using h2
            have n3 : ¬ b * b < -(1 / 1000000) := by nlinarith [mul_self_nonneg b]
            rw [one_div] at n1 n2 n3
            unfold Range.quadraticZeros
            simp [n1, n2, n3, fin_div hapos.ne']
          rw [this, holds_single] at hP
          have : -1 / 2 * b / a ≤ 0 := by
            apply div_nonpos_of_nonpos_of_nonneg <;> linarith
          linarith
    subst ht
    have hRS : R + S ≠ 0 := by positivity
    have hx' : x = (p.scale S + q.scale R).scale (1 / (R + S)) := by rw [hx]; ext <;> simp [along]
    refine ⟨C, hC, by rw [hp, hx'], ?_⟩
    rw [hn, hx']
    have he : (p.scale S + q.scale R).scale (1 / (R + S)) - p = (q - p).scale (R / (R + S)) := by ext <;> simp <;> field_simp <;> ring
    have hu : (q - p).dot (q - p) = (R + S) * (R + S) := by
      have : q - p = -(p - q) := by ext <;> simp
      rw [this, Vec3.neg_dot, Vec3.dot_neg, hd]; norm_num
    have hl : ((q - p).scale (R / (R + S))).len = R :=
      len_of hR.le (by rw [Vec3.scale_dot, Vec3.dot_scale, hu]; field_simp)
    have hne : (q - p).scale (R / (R + S)) ≠ .o := fun h => by rw [h] at hl; simp [Vec3.len] at hl; linarith
    rw [he, Vec3.f_normalize hne, hl]
    congr 1
    ext <;> simp <;> field_simp

/-- The contact of two balls that first touch at the part `τ` of the step, if the first one rests or moves along the line of the centres. -/
theorem billiard_contact {R S : ℝ} (hR : 0 < R) (hS : 0 < S) {p v q w n : Vec3 ℝ} {d τ α : ℝ} (hd : 0 < d) (hτ : 0 ≤ τ) (hτ1 : τ < 1) (touch : (q + (w.scale d).scale τ) - (p + (v.scale d).scale τ) = n.scale (R + S))
    (hn : n.dot n = 1) (straight : v = n.scale α) (front : 0 < R + α * d * τ) (fast : 1 / 1000 ≤ d * (v - w).dot n) (fine : 1 / 1000 ≤ 2 * (R + S) * (d * (v - w).dot n)) :
    ∃ C, collideSphereSphere (fin R) p.f (v.scale d).f (fin S) q.f (w.scale d).f = some C ∧ C.times.min = fin τ ∧ C.position = (p + (v.scale d).scale τ + n.scale R).f ∧ C.normal = n.f := by
  have hpq : p - q = ((v - w).scale d).scale (-τ) - n.scale (R + S) := by
    rw [← touch]; ext <;> simp <;> ring
  have hvw : v.scale d - w.scale d = (v - w).scale d := by ext <;> simp <;> ring
  generalize hu : v - w = u at hpq hvw fast fine
  set s := u.dot n with hs
  have cauchy : (d * s) * (d * s) ≤ (u.scale d).dot (u.scale d) := by
    have h := Vec3.dot_self_nonneg (u.scale d - n.scale (d * s))
    have : (u.scale d - n.scale (d * s)).dot (u.scale d - n.scale (d * s)) = (u.scale d).dot (u.scale d) - 2 * (d * s) * (d * u.dot n) + (d * s) * (d * s) * n.dot n := by
      simp [Vec3.dot_def]; ring
    rw [this, hn, ← hs] at h; nlinarith
  have big : (1 / 1000 : ℝ) * (1 / 1000) ≤ (d * s) * (d * s) := mul_le_mul fast fast (by norm_num) (le_trans (by norm_num) fast)
  have quad : ∀ t, (u.scale d).dot (u.scale d) * t ^ 2 + 2 * (u.scale d).dot (p - q) * t + ((p - q).dot (p - q) - (R + S) * (R + S)) =
      (u.scale d).dot (u.scale d) * (t - τ) ^ 2 - 2 * (R + S) * (d * s) * (t - τ) := by
    intro t
    have e : (R + S) * (R + S) = (R + S) * (R + S) * n.dot n := by rw [hn, mul_one]
    rw [hpq, e, hs]; simp [Vec3.dot_def]; ring
  have disc : discriminant R p (v.scale d) S q (w.scale d) = (2 * (2 * (R + S) * (d * s) / 2)) ^ 2 := by
    unfold discriminant
    have e : (R + S) * (R + S) = (R + S) * (R + S) * n.dot n := by rw [hn, mul_one]
    rw [hvw, hpq, e, hs]; simp [Vec3.dot_def]; ring
  rcases sphereSphere_first (r1 := R) (r2 := S) (c1 := p) (m1 := v.scale d) (c2 := q) (m2 := w.scale d) (by linarith)
      (P := fun t => (u.scale d).dot (u.scale d) * (t - τ) ^ 2 - 2 * (R + S) * (d * s) * (t - τ) ≤ 0) (fun t _ _ => by
        rw [← quad t]
        have := (C40_quadratic_partial ((v.scale d - w.scale d).dot (v.scale d - w.scale d)) (2 * (v.scale d - w.scale d).dot (p - q))
          ((p - q).dot (p - q) - (R + S) * (R + S)) (by rw [hvw]; unfold eps; linarith)).1 (Or.inr (by
            have h := disc; unfold discriminant at h; rw [h]; unfold eps; nlinarith)) t
        rw [this, hvw]) with h | ⟨C, t, x, hC, ht, hf, hx, hp, hnn⟩
  · exact absurd (by norm_num) (h.2 τ hτ hτ1.le)
  · have hle : t ≤ τ := hf.2 τ hτ hτ1.le (by norm_num)
    have ht' : t = τ := by
      apply le_antisymm hle
      by_contra hlt
      have hP := hf.1.2.2
      simp only at hP
      nlinarith [mul_nonneg (le_trans (mul_self_nonneg (d * s)) cauchy) (sq_nonneg (t - τ)), not_le.mp hlt]
    subst ht'
    have hx' : x = p + (v.scale d).scale t + n.scale R := by
      have h1 : q + (w.scale d).scale t = p + (v.scale d).scale t + n.scale (R + S) := by rw [← touch]; ext <;> simp
      rw [hx]; unfold along; rw [h1]; ext <;> simp <;> field_simp <;> ring
    refine ⟨C, hC, ht, by rw [hp, hx'], ?_⟩
    have he : x - p = n.scale (R + α * d * t) := by rw [hx', straight]; ext <;> simp <;> ring
    have hl : (n.scale (R + α * d * t)).len = R + α * d * t :=
      len_of front.le (by rw [Vec3.scale_dot, Vec3.dot_scale, hn]; ring)
    have hne : n.scale (R + α * d * t) ≠ .o := fun h => by rw [h] at hl; simp [Vec3.len] at hl; linarith
    rw [hnn, he, Vec3.f_normalize hne, hl]
    congr 1
    ext <;> simp <;> field_simp

/-- A body that just began to be watched does not fall asleep at once. -/
theorem sleep_up (ord : IterOrder) {d T : ℝ} (hT : 0 < T) {W : World XReal} {h : Handle} {m : XReal} {p v l a : Vec3 ℝ} {cs N : List Handle} (hg : W.entities.get h = some (dot m p v cs up))
    (ht : W.sleepTimeThreshold = fin T) :
    ∃ z : Nap, z.asleep = false ∧ sleepOne ord (fin d) ⟨h, l.f, a.f, N⟩ W = .ok { W with entities := W.entities.set h (dot m p v cs z) } := by
  unfold sleepOne
  simp only [hg, unwrap, Res.ok_bind]
  by_cases he : Scalar.lt W.energySleepThreshold (dot m p v cs up).totalEnergy = true
  · refine ⟨⟨false, fin 0, false, []⟩, rfl, ?_⟩
    rw [if_neg (by simp [dot, up]), if_pos he]
    simp [dot, up]
  · refine ⟨⟨true, fin 0, false, []⟩, rfl, ?_⟩
    rw [if_neg (by simp [dot, up]), if_neg he]
    have : Scalar.lt (fin 0) (fin T) = true := by simp [hT]
    simp [dot, up, ht, this, hT]

theorem inverse_sum_pos {m k : Option ℝ} (hm : ∀ x, m = some x → 0 < x) (hk : ∀ x, k = some x → 0 < x) (hmk : m ≠ none ∨ k ≠ none) : 0 < inverse m + inverse k := by
  have a : ∀ m : Option ℝ, (∀ x, m = some x → 0 < x) → 0 ≤ inverse m := by
    intro m hm
    rcases m with _ | x
    · exact le_refl _
    · exact (inv_pos.mpr (hm x rfl)).le
  have b : ∀ m : Option ℝ, (∀ x, m = some x → 0 < x) → m ≠ none → 0 < inverse m := by
    intro m hm h
    obtain ⟨x, hx⟩ := Option.ne_none_iff_exists'.mp h
    rw [hx]; exact inv_pos.mpr (hm x hx)
  rcases hmk with h | h
  · linarith [b m hm h, a k hk]
  · linarith [b k hk h, a m hm]

/-- A whole step in which two smooth balls collide. -/
theorem billiard_step (ord : IterOrder) {m k : Option ℝ} (hm : ∀ x, m = some x → 0 < x) (hk : ∀ x, k = some x → 0 < x) (hmk : m ≠ none ∨ k ≠ none) {R L : ℝ} (hR : 1 / 20 < R) (hL : 1 / 20 < L) {a b : ℝ} (hr : 0 ≤ a * b)
    {p v q w n : Vec3 ℝ} {d τ α : ℝ} (hd : 1 / 1000000 ≤ d) (hτ : 0 ≤ τ) (hτ1 : τ < 1) (touch : (q + (w.scale d).scale τ) - (p + (v.scale d).scale τ) = n.scale (R + L))
    (hn : n.dot n = 1) (straight : v = n.scale α) (front : 0 < R + α * d * τ) (fast : 1 / 1000 ≤ d * (v - w).dot n) (fine : 1 / 1000 ≤ 2 * (R + L) * (d * (v - w).dot n)) (closing : 1 / 1000000 ≤ (v - w).dot n)
    (i : Nat) (e : XReal) {T : ℝ} (hT : 0 < T) {J : ℝ} (hJ : J = -(1 + a * b) * (v - w).dot n / (inverse m + inverse k)) {v' w' : Vec3 ℝ}
    (hv' : v' = v + n.scale (J * inverse m)) (hw' : w' = w - n.scale (J * inverse k)) :
    ∃ (S : System XReal γ) (y z : Nap), System.step ord (scene (γ := γ) (dot (mx m) p v [h0] up) (dot (mx k) q w [h1] up) (pearl R a) (pearl L b) (i + 2) e (fin T)) (fin d) = .ok S ∧
      y.asleep = false ∧ z.asleep = false ∧
      S.entities = Scene.two (dot (mx m) (p + (v.scale d).scale τ + v'.scale (d * (1 - τ))) v' [h0] y) (dot (mx k) (q + (w.scale d).scale τ + w'.scale (d * (1 - τ))) w' [h1] z) ∧
      S.collisionRecords = [⟨h0, h1, (p + (v.scale d).scale τ + n.scale R).f, fin (τ * d), n.f, fin (a * b), fin |J|⟩] := by
  have hd0 : 0 < d := lt_of_lt_of_le (by norm_num) hd
  have hpos := inverse_sum_pos hm hk hmk
  unfold System.step
  rw [if_neg (by simp [abs_of_pos hd0]; linarith)]
  simp only [scene, two_handles]
  have hgen : (Arena.new : Arena γ).handles = [] := rfl
  rw [hgen]
  simp only [integrateAll]
  rw [integrate m p v [h0] up d _ (two_get0 _ _)]
  simp only [Res.ok_bind, two_set0]
  rw [integrate k q w [h1] up d _ (two_get1 _ _)]
  simp only [Res.ok_bind, two_set1]
  obtain ⟨C, hC, ct, cp, cn⟩ := billiard_contact (show 0 < R by linarith) (show 0 < L by linarith) hd0 hτ hτ1 touch hn straight front fast fine
  have hK := consider_pearl_pair R L a b (mx m) (mx k) p v q w up up (v.scale d) (w.scale d) [] [] hC (fun C' h => by cases h; exact ⟨_, cp⟩)
  simp only [cn, ct, Vec3.f_sub, Vec3.f_dot, EPSILON_eq, fin_lt] at hK
  rw [if_neg (by rw [decide_eq_true_iff]; linarith), if_pos (by rw [decide_eq_true_iff]; exact hτ1)] at hK
  rw [zero_eq, iterate_slick_of ord (d := d) hm hk hmk (y := up) (z := up) ⟨rfl, rfl⟩ ⟨rfl, rfl⟩ hn (s := (v - w).dot n) rfl rfl
    (by rw [search ord rfl rfl rfl rfl (by simp [dot, up]) (by simp [dot, up]) rfl rfl, hK]) rfl cp cn rfl rfl rfl (.inr ⟨rfl, rfl⟩) rfl rfl rfl rfl (J := J) hJ]
  rw [← hv', ← hw']
  have hback : (v' - w').dot n = -(a * b) * (v - w).dot n := by
    have : (v' - w').dot n = (v - w).dot n + J * (inverse m + inverse k) * n.dot n := by rw [hv', hw']; simp [Vec3.dot_def]; ring
    rw [this, hn, hJ]; field_simp; ring
  have hQ : q + (w.scale d).scale τ = p + (v.scale d).scale τ + n.scale (R + L) := by rw [← touch]; ext <;> simp
  have hmiss : ∀ N O : List Handle, considerPair (Scene.two ((pearl R a).setEntity (some h0)) ((pearl L b).setEntity (some h1))) (dot (mx m) (p + (v.scale d).scale τ) v' [h0] up)
      (dot (mx k) (q + (w.scale d).scale τ) w' [h1] up) ⟨h0, (v'.scale (d * (1 - τ))).f, (Vec3.o).f, N⟩
      ⟨h1, (w'.scale (d * (1 - τ))).f, (Vec3.o).f, O⟩ 0 1 h0 h1 none = .ok none := by
    intro N O
    have hsep : (v'.scale (d * (1 - τ)) - w'.scale (d * (1 - τ))) = (v' - w').scale (d * (1 - τ)) := by ext <;> simp <;> ring
    have hPQ : p + (v.scale d).scale τ - (q + (w.scale d).scale τ) = n.scale (-(R + L)) := by rw [hQ]; ext <;> simp <;> ring
    rcases touching_pearls (R := R) (S := L) (by linarith) (by linarith) (p := p + (v.scale d).scale τ) (q := q + (w.scale d).scale τ) (l := v'.scale (d * (1 - τ))) (j := w'.scale (d * (1 - τ)))
      (by rw [hPQ, Vec3.scale_dot, Vec3.dot_scale, hn]; ring)
      (by
        rw [hsep, hPQ, Vec3.scale_dot, Vec3.dot_scale, hback]
        have : 0 ≤ a * b * (v - w).dot n := mul_nonneg hr (by linarith)
        have : 0 ≤ a * b * (v - w).dot n * (d * (1 - τ)) := mul_nonneg this (mul_nonneg hd0.le (by linarith))
        have := mul_nonneg this (show 0 ≤ R + L by linarith)
        linarith) with h | ⟨C', h, hp', hn'⟩
    · exact consider_pearl_pair R L a b _ _ _ _ _ _ _ _ _ _ _ _ h (fun _ h => by cases h)
    · rw [consider_pearl_pair R L a b _ _ _ _ _ _ _ _ _ _ _ _ h (fun C'' h => by cases h; exact ⟨_, hp'⟩)]
      have hn'' : (q + (w.scale d).scale τ - (p + (v.scale d).scale τ)).scale (1 / (R + L)) = n := by
        have hRL : R + L ≠ 0 := by linarith
        rw [touch]; ext <;> simp <;> field_simp
      simp only [hn', hn'', Vec3.f_sub, Vec3.f_dot, hback, EPSILON_eq, fin_lt]
      rw [if_pos]
      rw [decide_eq_true_iff]
      have : 0 ≤ a * b * (v - w).dot n := mul_nonneg hr (by linarith)
      linarith
  rw [iterate_miss ord (d := d) (y := up) (z := up) rfl rfl (by simp [up]) (by simp [up]) rfl rfl (hmiss _ _)]
  simp only [Res.ok_bind, if_true, sleepLoop]
  obtain ⟨y, hy, e1⟩ := sleep_up ord (d := d) hT (l := .o) (a := .o) (h := h0)
    (W := { entities := Scene.two (dot (mx m) (p + (v.scale d).scale τ + v'.scale (d * (1 - τ))) v' [h0] up) (dot (mx k) (q + (w.scale d).scale τ + w'.scale (d * (1 - τ))) w' [h1] up),
            colliders := Scene.two ((pearl R a).setEntity (some h0)) ((pearl L b).setEntity (some h1)), iterationMax := i + 2,
            collisionRecords := [] ++ [⟨h0, h1, (p + (v.scale d).scale τ + n.scale R).f, fin ((0 + (1 - 0) * τ) * d), n.f, fin (a * b), fin |J|⟩],
            energySleepThreshold := e, sleepTimeThreshold := fin T, debug := [] }) (N := if |a * b * (v - w).dot n| < 1 / 1000000 then hsInsert [] h1 else []) (two_get0 _ _) rfl
  rw [e1]
  simp only [Res.ok_bind, two_set0]
  obtain ⟨z, hz, e2⟩ := sleep_up ord (d := d) hT (l := .o) (a := .o) (h := h1)
    (W := { entities := Scene.two (dot (mx m) (p + (v.scale d).scale τ + v'.scale (d * (1 - τ))) v' [h0] y) (dot (mx k) (q + (w.scale d).scale τ + w'.scale (d * (1 - τ))) w' [h1] up),
            colliders := Scene.two ((pearl R a).setEntity (some h0)) ((pearl L b).setEntity (some h1)), iterationMax := i + 2,
            collisionRecords := [] ++ [⟨h0, h1, (p + (v.scale d).scale τ + n.scale R).f, fin ((0 + (1 - 0) * τ) * d), n.f, fin (a * b), fin |J|⟩],
            energySleepThreshold := e, sleepTimeThreshold := fin T, debug := [] }) (N := if |a * b * (v - w).dot n| < 1 / 1000000 then hsInsert [] h0 else []) (two_get1 _ _) rfl
  rw [e2]
  simp only [Res.ok_bind, two_set1]
  refine ⟨_, y, z, rfl, hy, hz, rfl, ?_⟩
  simp

/-! ### C104 -/

/-- A mass for the balls. -/
theorem mx_ok {m : Option ℝ} (hm : ∀ x, m = some x → 0 < x) : Scalar.lt (mx m) zero = false := by
  rcases m with _ | x
  · rfl
  · have := hm x rfl
    simp [mx, this.le]

/-- The calls that make a table with two smooth balls, with radii `R` and `L`, masses `m` and `k`, restitutions `a` and `b`, positions `p` and `q`, and velocities `v` and `w`,
the last first. -/
noncomputable def tableCalls (m k : XReal) (R L a b : ℝ) (p v q w : Vec3 ℝ) (i : Nat) (e t : XReal) : List (Op XReal γ × Out γ) :=
  [(.configure i e t [] [], .unit), (.linkCollider h1 (some h1), .ok true), (.linkCollider h0 (some h0), .ok true),
    (.addCollider (.sphere ⟨none, ⟨fin 0, fin 0, fin 0⟩, fin L, fin 0, ⟨fin b, fin (1 / 4), fin 0, fin 0⟩⟩), .collider (some h1)),
    (.addCollider (.sphere ⟨none, ⟨fin 0, fin 0, fin 0⟩, fin R, fin 0, ⟨fin a, fin (1 / 4), fin 0, fin 0⟩⟩), .collider (some h0)),
    (.addEntity { Entity.new with ownMass := k, position := q.f, velocity := w.f }, .entity (some h1)),
    (.addEntity { Entity.new with ownMass := m, position := p.f, velocity := v.f }, .entity (some h0))]

theorem billiard_table (ord : IterOrder) {m k : Option ℝ} (hm : ∀ x, m = some x → 0 < x) (hk : ∀ x, k = some x → 0 < x) (hmk : m ≠ none ∨ k ≠ none) {R L : ℝ} (hR : 1 / 20 < R) (hL : 1 / 20 < L) {a b : ℝ} (hr : 0 ≤ a * b)
    {p v q w n : Vec3 ℝ} {d τ α : ℝ} (hd : 1 / 1000000 ≤ d) (hτ : 0 ≤ τ) (hτ1 : τ < 1) (touch : (q + w.scale (d * τ)) - (p + v.scale (d * τ)) = n.scale (R + L))
    (hn : n.dot n = 1) (straight : v = n.scale α) (front : 0 < R + α * (d * τ)) (fast : 1 / 1000 ≤ d * (v - w).dot n) (fine : 1 / 1000 ≤ 2 * (R + L) * (d * (v - w).dot n)) (closing : 1 / 1000000 ≤ (v - w).dot n)
    (i : Nat) (hi : 2 ≤ i) (e : XReal) {T : ℝ} (hT : 0 < T) {J : ℝ} (hJ : J = -(1 + a * b) * (v - w).dot n / (inverse m + inverse k)) {v' w' : Vec3 ℝ}
    (hv' : v' = v + n.scale (J * inverse m)) (hw' : w' = w - n.scale (J * inverse k)) :
    ∃ (s s' : System XReal γ) (x y : Entity XReal), Steps System.new (tableCalls (mx m) (mx k) R L a b p v q w i e (fin T)) s ∧ s.step ord (fin d) = .ok s' ∧
      s'.getEntity h0 = some x ∧ s'.getEntity h1 = some y ∧ x.velocity = v'.f ∧ y.velocity = w'.f ∧
      x.position = (p + v.scale (d * τ) + v'.scale (d * (1 - τ))).f ∧ y.position = (q + w.scale (d * τ) + w'.scale (d * (1 - τ))).f ∧
      ∃ r, s'.collisionRecords = [r] ∧ r.time = fin (d * τ) ∧ r.normal = n.f ∧ r.position = (p + v.scale (d * τ) + n.scale R).f ∧ r.impulseMagnitude = fin |J| := by
  obtain ⟨j, rfl⟩ : ∃ j, i = j + 2 := ⟨i - 2, by omega⟩
  have e2 : ∀ u : Vec3 ℝ, (u.scale d).scale τ = u.scale (d * τ) := fun u => by ext <;> simp <;> ring
  obtain ⟨S, y, z, hS, -, -, hE, hrec⟩ := billiard_step (γ := γ) ord hm hk hmk hR hL hr hd hτ hτ1 (by rw [e2, e2]; exact touch) hn straight (by rw [mul_assoc]; exact front) fast fine closing j e hT hJ hv' hw'
  rw [e2, e2] at hE
  rw [e2] at hrec
  refine ⟨_, S, _, _, scene_steps (mx_ok hm) (mx_ok hk) p v q w (pearl_newFrom hR a) (pearl_newFrom hL b) (pearl_weightless _ R a) (pearl_weightless _ L b) (j + 2) e (fin T), hS,
    getEntity_iff.mpr ⟨_, by rw [hE]; exact two_get0 _ _, rfl⟩, getEntity_iff.mpr ⟨_, by rw [hE]; exact two_get1 _ _, rfl⟩, rfl, rfl, rfl, rfl, _, hrec, ?_, rfl, rfl, rfl⟩
  show fin (τ * d) = fin (d * τ)
  rw [mul_comm]

/-- **C104 (partial).** Two smooth balls touch at the part `τ` of a step, with their centres on a line along the unit vector `n`, and approach one another.  Then each gets the
velocity the textbook gives it: only the part along `n` changes, so that the momentum stays and the velocity of approach is reversed times the restitution.  And each is at the end of the
step where its old velocity takes it until the contact and its new one from there on.  The one record of the step says when and where this was.
Missing: a first ball (by the index of its handle) that does not rest and does not move along `n` (`C104_false`); an approach of less than 1 mm in the step (or a bit more if both balls are smaller than 1/4); friction, spin
and other bodies around. -/
theorem C104_partial (ord : IterOrder) {M K : ℝ} (hM : 0 < M) (hK : 0 < K) {R L : ℝ} (hR : 1 / 20 < R) (hL : 1 / 20 < L) {a b : ℝ} (hr : 0 ≤ a * b)
    {p v q w n : Vec3 ℝ} {d τ α : ℝ} (hd : 1 / 1000000 ≤ d) (hτ : 0 ≤ τ) (hτ1 : τ < 1) (touch : (q + w.scale (d * τ)) - (p + v.scale (d * τ)) = n.scale (R + L))
    (hn : n.dot n = 1) (straight : v = n.scale α) (front : 0 < R + α * (d * τ)) (fast : 1 / 1000 ≤ d * (v - w).dot n) (fine : 1 / 1000 ≤ 2 * (R + L) * (d * (v - w).dot n)) (closing : 1 / 1000000 ≤ (v - w).dot n)
    (i : Nat) (hi : 2 ≤ i) (e : XReal) {T : ℝ} (hT : 0 < T) {v' w' : Vec3 ℝ}
    (hv' : v' = v - n.scale ((1 + a * b) * K / (M + K) * (v - w).dot n)) (hw' : w' = w + n.scale ((1 + a * b) * M / (M + K) * (v - w).dot n)) :
    ∃ (s s' : System XReal γ) (x y : Entity XReal), Steps System.new (tableCalls (fin M) (fin K) R L a b p v q w i e (fin T)) s ∧ s.step ord (fin d) = .ok s' ∧
      s'.getEntity h0 = some x ∧ s'.getEntity h1 = some y ∧ x.velocity = v'.f ∧ y.velocity = w'.f ∧
      x.position = (p + v.scale (d * τ) + v'.scale (d * (1 - τ))).f ∧ y.position = (q + w.scale (d * τ) + w'.scale (d * (1 - τ))).f ∧
      ∃ r, s'.collisionRecords = [r] ∧ r.time = fin (d * τ) ∧ r.normal = n.f ∧ r.position = (p + v.scale (d * τ) + n.scale R).f ∧
        r.impulseMagnitude = fin ((1 + a * b) * (M * K / (M + K)) * (v - w).dot n) := by
  have hMK : M + K ≠ 0 := by positivity
  have hKM : K + M ≠ 0 := by positivity
  have hJ : |-(1 + a * b) * (v - w).dot n / (inverse (some M) + inverse (some K))| = (1 + a * b) * (M * K / (M + K)) * (v - w).dot n := by
    have e : -(1 + a * b) * (v - w).dot n / (inverse (some M) + inverse (some K)) = -((1 + a * b) * (M * K / (M + K)) * (v - w).dot n) := by
      simp only [inverse]; field_simp; ring
    rw [e, abs_neg, abs_of_nonneg]
    have : 0 ≤ (v - w).dot n := by linarith
    positivity
  rw [← hJ]
  refine billiard_table (m := some M) (k := some K) ord (by rintro x ⟨⟩; exact hM) (by rintro x ⟨⟩; exact hK) (Or.inl (by simp)) hR hL hr hd hτ hτ1 touch hn straight front fast fine closing i hi e hT rfl ?_ ?_
  · rw [hv']; simp only [inverse]; ext <;> simp <;> field_simp <;> ring
  · rw [hw']; simp only [inverse]; ext <;> simp <;> field_simp <;> ring

/-- **C104**, a ball that cannot be moved: the other is thrown back from it as from a wall, and it keeps its velocity. -/
theorem C104_fixed (ord : IterOrder) {K : ℝ} (hK : 0 < K) {R L : ℝ} (hR : 1 / 20 < R) (hL : 1 / 20 < L) {a b : ℝ} (hr : 0 ≤ a * b)
    {p v q w n : Vec3 ℝ} {d τ α : ℝ} (hd : 1 / 1000000 ≤ d) (hτ : 0 ≤ τ) (hτ1 : τ < 1) (touch : (q + w.scale (d * τ)) - (p + v.scale (d * τ)) = n.scale (R + L))
    (hn : n.dot n = 1) (straight : v = n.scale α) (front : 0 < R + α * (d * τ)) (fast : 1 / 1000 ≤ d * (v - w).dot n) (fine : 1 / 1000 ≤ 2 * (R + L) * (d * (v - w).dot n)) (closing : 1 / 1000000 ≤ (v - w).dot n)
    (i : Nat) (hi : 2 ≤ i) (e : XReal) {T : ℝ} (hT : 0 < T) {w' : Vec3 ℝ} (hw' : w' = w + n.scale ((1 + a * b) * (v - w).dot n)) :
    ∃ (s s' : System XReal γ) (x y : Entity XReal), Steps System.new (tableCalls posInf (fin K) R L a b p v q w i e (fin T)) s ∧ s.step ord (fin d) = .ok s' ∧
      s'.getEntity h0 = some x ∧ s'.getEntity h1 = some y ∧ x.velocity = v.f ∧ y.velocity = w'.f ∧
      x.position = (p + v.scale d).f ∧ y.position = (q + w.scale (d * τ) + w'.scale (d * (1 - τ))).f := by
  obtain ⟨s, s', x, y, h1', h2', h3, h4, h5, h6, h7, h8, -⟩ := billiard_table (γ := γ) (m := none) (k := some K) ord (by rintro x ⟨⟩) (by rintro x ⟨⟩; exact hK) (Or.inr (by simp)) hR hL hr hd hτ hτ1 touch hn
    straight front fast fine closing i hi e hT rfl (v' := v) (w' := w') (by simp only [inverse]; ext <;> simp) (by rw [hw']; simp only [inverse]; ext <;> simp <;> field_simp <;> ring)
  refine ⟨s, s', x, y, h1', h2', h3, h4, h5, h6, ?_, h8⟩
  rw [h7]; congr 1; ext <;> simp <;> ring

/-- **C104**, billiards: a ball runs into an equal one that rests, and the restitution is 1.  Then the two leave at a right angle, and if it was met head-on, the resting ball takes over the
velocity and the other one stays where it is. -/
theorem C104_equal_partial (ord : IterOrder) {M R L : ℝ} (hM : 0 < M) (hR : 1 / 20 < R) (hL : 1 / 20 < L)
    {p q w n : Vec3 ℝ} {d τ : ℝ} (hd : 1 / 1000000 ≤ d) (hτ : 0 ≤ τ) (hτ1 : τ < 1) (touch : q + w.scale (d * τ) - p = n.scale (R + L))
    (hn : n.dot n = 1) (fast : 1 / 1000 ≤ d * -w.dot n) (fine : 1 / 1000 ≤ 2 * (R + L) * (d * -w.dot n)) (closing : 1 / 1000000 ≤ -w.dot n) (i : Nat) (hi : 2 ≤ i) (e : XReal) {T : ℝ} (hT : 0 < T) :
    ∃ (s s' : System XReal γ) (x y : Entity XReal) (v' w' : Vec3 ℝ), Steps System.new (tableCalls (fin M) (fin M) R L 1 1 p .o q w i e (fin T)) s ∧ s.step ord (fin d) = .ok s' ∧
      s'.getEntity h0 = some x ∧ s'.getEntity h1 = some y ∧ x.velocity = v'.f ∧ y.velocity = w'.f ∧ v' + w' = w ∧ v'.dot w' = 0 ∧ v'.dot v' + w'.dot w' = w.dot w ∧
      ((∃ β, w = n.scale β) → v' = w ∧ w' = .o ∧ x.position = (p + w.scale (d * (1 - τ))).f ∧ y.position = (p + n.scale (R + L)).f) := by
  have e0 : (Vec3.o - w).dot n = -w.dot n := by simp [Vec3.dot_def]; ring
  have eo : (Vec3.o : Vec3 ℝ).scale (d * τ) = .o := o_scale _
  have ep : p + (Vec3.o : Vec3 ℝ) = p := by ext <;> simp
  have hh : (1 + 1 * 1) * M / (M + M) = 1 := by field_simp
  obtain ⟨s, s', x, y, h1', h2', h3, h4, h5, h6, h7, h8, -⟩ := C104_partial (γ := γ) ord hM hM hR hL (a := 1) (b := 1) (by norm_num) (p := p) (v := .o) (q := q) (w := w) (n := n) (α := 0) hd hτ hτ1
    (by rw [eo, ep]; exact touch) hn (by ext <;> simp) (by simp; linarith) (by rw [e0]; exact fast) (by rw [e0]; exact fine) (by rw [e0]; exact closing) i hi e hT (v' := n.scale (w.dot n)) (w' := w - n.scale (w.dot n))
    (by rw [e0, hh]; ext <;> simp) (by rw [e0, hh]; ext <;> simp <;> ring)
  have hperp : (n.scale (w.dot n)).dot (w - n.scale (w.dot n)) = 0 := by
    have : (n.scale (w.dot n)).dot (w - n.scale (w.dot n)) = w.dot n * w.dot n - w.dot n * w.dot n * n.dot n := by simp [Vec3.dot_def]; ring
    rw [this, hn]; ring
  refine ⟨s, s', x, y, _, _, h1', h2', h3, h4, h5, h6, by ext <;> simp, hperp, ?_, ?_⟩
  · have : w.dot w = (n.scale (w.dot n)).dot (n.scale (w.dot n)) + (w - n.scale (w.dot n)).dot (w - n.scale (w.dot n)) + 2 * (n.scale (w.dot n)).dot (w - n.scale (w.dot n)) := by
      simp [Vec3.dot_def]; ring
    rw [this, hperp]; ring
  · rintro ⟨β, hβ⟩
    have hb : w.dot n = β := by rw [hβ, Vec3.scale_dot, hn, one_mul]
    have e1 : n.scale (w.dot n) = w := by rw [hb, hβ]
    rw [e1] at h7 h8 ⊢
    have e2 : w - w = .o := by ext <;> simp
    rw [e2] at h8 ⊢
    refine ⟨rfl, rfl, by rw [h7, eo, ep], ?_⟩
    rw [h8, o_scale, ← touch]; congr 1; ext <;> simp

/-- The hypotheses can be met: a ball that comes along the diagonal hits a resting one after half of a step of a second; they leave at right angles. -/
example (ord : IterOrder) : ∃ (s s' : System XReal γ) (x y : Entity XReal), Steps System.new (tableCalls (fin 1) (fin 1) (3 / 2) (1 / 2) 1 1 .o .o ⟨4, 2, 0⟩ ⟨-4, -4, 0⟩ 5 (fin 1) (fin 1)) s ∧
    s.step ord (fin 1) = .ok s' ∧ s'.getEntity h0 = some x ∧ s'.getEntity h1 = some y ∧ x.velocity = (⟨-4, 0, 0⟩ : Vec3 ℝ).f ∧ y.velocity = (⟨0, -4, 0⟩ : Vec3 ℝ).f ∧
    x.position = (⟨-2, 0, 0⟩ : Vec3 ℝ).f ∧ y.position = (⟨2, -2, 0⟩ : Vec3 ℝ).f := by
  obtain ⟨s, s', x, y, h1', h2', h3, h4, h5, h6, h7, h8, -⟩ := C104_partial (γ := γ) ord (M := 1) (K := 1) one_pos one_pos (R := 3 / 2) (L := 1 / 2) (by norm_num) (by norm_num) (a := 1) (b := 1) (by norm_num) (p := .o) (v := .o) (q := ⟨4, 2, 0⟩)
    (w := ⟨-4, -4, 0⟩) (n := ⟨1, 0, 0⟩) (d := 1) (τ := 1 / 2) (α := 0) (by norm_num) (by norm_num) (by norm_num) (by ext <;> norm_num) (by norm_num [Vec3.dot_def]) (by ext <;> simp) (by norm_num)
    (by norm_num [Vec3.dot_def]) (by norm_num [Vec3.dot_def]) (by norm_num [Vec3.dot_def]) 5 (by norm_num) (fin 1) one_pos (v' := ⟨-4, 0, 0⟩) (w' := ⟨0, -4, 0⟩) (by ext <;> norm_num [Vec3.dot_def]) (by ext <;> norm_num [Vec3.dot_def])
  refine ⟨s, s', x, y, h1', h2', h3, h4, h5, h6, ?_, ?_⟩
  · rw [h7]; congr 1; ext <;> norm_num
  · rw [h8]; congr 1; ext <;> norm_num

/-- The hypotheses of `C38_momentum` can be met by a step with a collision: 1 kg against 3 kg, with a loss of energy. -/
example (ord : IterOrder) : ∃ s s' : System XReal γ, s.step ord (fin 1) = .ok s' ∧ s.generators.handles = [] ∧
    (∀ k p, s.getEntity k = some p → p.asleep = false ∧ ∃ m : ℝ, p.lastTotalMass = fin m ∧ 0 < m) ∧ (∀ k p', s'.getEntity k = some p' → Finite3 p'.velocity) ∧
    s'.collisionRecords.length = 1 ∧ totalMomentum s'.toWorld = totalMomentum s.toWorld := by
  obtain ⟨S, y, z, hS, -, -, hE, hrec⟩ := billiard_step (γ := γ) ord (m := some 1) (k := some 3) (by rintro x ⟨⟩; norm_num) (by rintro x ⟨⟩; norm_num) (.inl (by simp)) (R := 3 / 2) (L := 1 / 2)
    (by norm_num) (by norm_num) (a := 1 / 2) (b := 1) (by norm_num) (p := .o) (v := .o) (q := ⟨4, 2, 0⟩) (w := ⟨-4, -4, 0⟩) (n := ⟨1, 0, 0⟩) (d := 1) (τ := 1 / 2) (α := 0) (by norm_num) (by norm_num)
    (by norm_num) (by ext <;> norm_num) (by norm_num [Vec3.dot_def]) (by ext <;> simp) (by norm_num) (by norm_num [Vec3.dot_def]) (by norm_num [Vec3.dot_def]) (by norm_num [Vec3.dot_def]) 3 (fin 1) one_pos
    rfl rfl rfl
  have hs : ∀ k p, (scene (γ := γ) (dot (mx (some 1)) .o .o [h0] up) (dot (mx (some 3)) ⟨4, 2, 0⟩ ⟨-4, -4, 0⟩ [h1] up) (pearl (3 / 2) (1 / 2)) (pearl (1 / 2) 1) (3 + 2) (fin 1) (fin 1)).getEntity k = some p →
      p.asleep = false ∧ ∃ m : ℝ, p.lastTotalMass = fin m ∧ 0 < m := by
    intro k p hp
    obtain ⟨E, gE, rfl⟩ := getEntity_iff.mp hp
    rcases two_either gE with ⟨-, rfl⟩ | ⟨-, rfl⟩
    · exact ⟨rfl, 1, rfl, by norm_num⟩
    · exact ⟨rfl, 3, rfl, by norm_num⟩
  have hf : ∀ k p', S.getEntity k = some p' → Finite3 p'.velocity := by
    intro k p hp
    obtain ⟨E, gE, rfl⟩ := getEntity_iff.mp hp
    rw [hE] at gE
    rcases two_either gE with ⟨-, rfl⟩ | ⟨-, rfl⟩ <;> exact finite3_f _
  exact ⟨_, S, hS, rfl, hs, hf, by rw [hrec]; rfl, C38_momentum hS rfl hs hf⟩

section
open F32
variable [Libm]

/-- The value of a number is between two others. -/
def liesIn (a : F32) (l u : ℚ) : Bool := match a with | .fin x _ _ => decide (l < x) && decide (x < u) | _ => false
theorem lies_iff {a : F32} {l u : ℚ} (h : liesIn a l u = true) : ∃ q, Val a q ∧ l < q ∧ q < u := by
  rcases a with _ | a | ⟨x, a, h'⟩
  · cases h
  · cases h
  · simp only [liesIn, Bool.and_eq_true, decide_eq_true_eq] at h
    exact ⟨x, ⟨a, h', rfl⟩, h⟩

/-- A smooth elastic ball of 1 kg with radius 5/4, for the calls that make it. -/
def cue (h : Handle) (p v : Vec3 F32) : List (Op F32 (GravityGenerator F32)) :=
  [.addEntity (thing (num 1) p v), .addCollider (ball (vec 0 0 0) (num 5 4) (num 0) (num 1)), .linkCollider h (some h)]

/-- **C104 is false**, in binary32: a ball at the origin that moves along the x axis with 4 m/s meets an equal one that rests at (4, 3/2) after half of a step of a second, when it is at (2, 0)
and the line of the centres has the direction (4/5, 3/5).  The velocity of the resting ball should become (64/25, 48/25), but it becomes about (64/17, 16/17): not along this line but along the one to the
contact from where the moving ball was at the start of the step. -/
theorem C104_false : ∃ (s s' : System F32 (GravityGenerator F32)) (a b a' b' : Entity F32) (r : CollisionRecord F32) (x y : ℚ), Reachable s ∧ s.step .id (num 1) = .ok s' ∧
    s.getEntity h0 = some a ∧ s.getEntity h1 = some b ∧ s'.getEntity h0 = some a' ∧ s'.getEntity h1 = some b' ∧ a.position = vec 0 0 0 ∧ a.velocity = vec 4 0 0 ∧
    b.position = ⟨num 4, num 3 2, num 0⟩ ∧ b.velocity = vec 0 0 0 ∧ s'.collisionRecords = [r] ∧ r.time = num 1 2 ∧ r.position = ⟨num 3, num 3 4, num 0⟩ ∧
    Val b'.velocity.x x ∧ Val b'.velocity.y y ∧ 37 / 10 < x ∧ x < 38 / 10 ∧ 9 / 10 < y ∧ y < 1 := by
  have h : ((play (plain (cue h0 (vec 0 0 0) (vec 4 0 0) ++ cue h1 ⟨num 4, num 3 2, num 0⟩ (vec 0 0 0))) (System.new : System F32 (GravityGenerator F32))).test fun r =>
      (r.1.step .id (num 1)).test fun s' => (match s'.collisionRecords with
        | [c] => same c.time (num 1 2) && vecEq c.position ⟨num 3, num 3 4, num 0⟩
        | _ => false) && match r.1.getEntity h0, r.1.getEntity h1, s'.getEntity h0, s'.getEntity h1 with
      | some a, some b, some _, some b' => vecEq a.position (vec 0 0 0) && (vecEq a.velocity (vec 4 0 0) && (vecEq b.position ⟨num 4, num 3 2, num 0⟩ && (vecEq b.velocity (vec 0 0 0) &&
          (liesIn b'.velocity.x (37 / 10) (38 / 10) && liesIn b'.velocity.y (9 / 10) 1))))
      | _, _, _, _ => false) = true := by kernel_refl
  obtain ⟨⟨s, outs⟩, hplay, h⟩ := Res.of_test h
  obtain ⟨s', hs', h⟩ := Res.of_test h
  rw [Bool.and_eq_true] at h
  obtain ⟨hr, h⟩ := h
  split at hr
  case h_2 => cases hr
  rename_i c hc
  simp only [Bool.and_eq_true, same_iff, vecEq_iff] at hr
  split at h
  case h_2 => cases h
  rename_i a b a' b' g1 g2 g3 g4
  simp only [Bool.and_eq_true, vecEq_iff] at h
  obtain ⟨e1, e2, e3, e4, e5, e6⟩ := h
  obtain ⟨x, v1, l1, u1⟩ := lies_iff e5
  obtain ⟨y, v2, l2, u2⟩ := lies_iff e6
  exact ⟨s, s', a, b, a', b', c, x, y, play_reachable hplay, hs', g1, g2, g3, g4, e1, e2, e3, e4, hc, hr.1, hr.2, v1, v2, l1, u1, l2, u2⟩

end
end Fluffy.Props
