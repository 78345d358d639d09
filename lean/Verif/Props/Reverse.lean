import Verif.Props.Twice
import Verif.Props.Billiards
/-
C111: an elastic collision of smooth balls runs backward.
-/
set_option linter.unusedSectionVars false
set_option linter.unusedSimpArgs false
namespace Fluffy.Props
open XReal Demo Step Scene

section
variable {γ : Type} [ForceGenerator XReal γ]

/-- **C111 (partial, exact arithmetic).** Two smooth balls without loss (`a * b = 1`) collide during a step.  If balls are put where these two are at the end of the step, with the opposite
velocities, then a step of the same length takes them back to where the first two started, with the opposites of the velocities these started with; and the contact is at the same place, at the
mirrored time, with the same impulse.  Missing: a first ball (by the index of its handle) that does not move along the line of the centres (`C111_false`); slow approach, friction and spin. -/
theorem C111_partial (ord ord' : IterOrder) {M K : ℝ} (hM : 0 < M) (hK : 0 < K) {R L : ℝ} (hR : 1 / 20 < R) (hL : 1 / 20 < L) {a b : ℝ} (hr : a * b = 1)
    {p v q w n : Vec3 ℝ} {d τ α β : ℝ} (hd : 1 / 1000000 ≤ d) (hτ : 0 < τ) (hτ1 : τ < 1) (touch : (q + w.scale (d * τ)) - (p + v.scale (d * τ)) = n.scale (R + L))
    (hn : n.dot n = 1) (straight : v = n.scale α) (front : 0 < R + α * (d * τ)) (hβ : β = α - 2 * K / (M + K) * (v - w).dot n) (front' : 0 < R - β * (d * (1 - τ)))
    (fast : 1 / 1000 ≤ d * (v - w).dot n) (fine : 1 / 1000 ≤ 2 * (R + L) * (d * (v - w).dot n)) (closing : 1 / 1000000 ≤ (v - w).dot n)
    (i : Nat) (hi : 2 ≤ i) (e : XReal) {T : ℝ} (hT : 0 < T) :
    ∃ (p' v' q' w' : Vec3 ℝ) (s s' t t' : System XReal γ) (x y x' y' : Entity XReal) (r r' : CollisionRecord XReal),
      Steps System.new (tableCalls (fin M) (fin K) R L a b p v q w i e (fin T)) s ∧ s.step ord (fin d) = .ok s' ∧
      s'.getEntity h0 = some x ∧ s'.getEntity h1 = some y ∧ x.position = p'.f ∧ x.velocity = v'.f ∧ y.position = q'.f ∧ y.velocity = w'.f ∧
      Steps System.new (tableCalls (fin M) (fin K) R L a b p' (-v') q' (-w') i e (fin T)) t ∧ t.step ord' (fin d) = .ok t' ∧
      t'.getEntity h0 = some x' ∧ t'.getEntity h1 = some y' ∧ x'.position = p.f ∧ x'.velocity = (-v).f ∧ y'.position = q.f ∧ y'.velocity = (-w).f ∧
      s'.collisionRecords = [r] ∧ t'.collisionRecords = [r'] ∧ r.position = r'.position ∧ r.time = fin (d * τ) ∧ r'.time = fin (d * (1 - τ)) ∧ r.impulseMagnitude = r'.impulseMagnitude := by
  have hMK : M + K ≠ 0 := by positivity
  set c := (v - w).dot n with hc
  obtain ⟨s, s', x, y, a1, a2, a3, a4, a5, a6, a7, a8, r, a9, a10, a11, a12, a13⟩ :=
    C104_partial (γ := γ) ord hM hK hR hL (a := a) (b := b) (by rw [hr]; norm_num) hd hτ.le hτ1 touch hn straight front fast fine closing i hi e hT rfl rfl
  rw [← hc] at a5 a6 a7 a8 a13
  rw [hr] at a5 a6 a7 a8 a13
  set v' := v - n.scale ((1 + 1) * K / (M + K) * c) with hv'
  set w' := w + n.scale ((1 + 1) * M / (M + K) * c) with hw'
  set p' := p + v.scale (d * τ) + v'.scale (d * (1 - τ)) with hp'
  set q' := q + w.scale (d * τ) + w'.scale (d * (1 - τ)) with hq'
  have hback : (-v' - -w').dot n = c := by
    have : (-v' - -w').dot n = -((v - w).dot n) + ((1 + 1) * K / (M + K) * c + (1 + 1) * M / (M + K) * c) * n.dot n := by
      rw [hv', hw']; simp [Vec3.dot_def]; ring
    rw [this, hn, ← hc]; field_simp; ring
  have hstr : -v' = n.scale (-β) := by
    rw [hv', hβ, straight]; ext <;> simp <;> ring
  have e1 : ∀ u z : Vec3 ℝ, ∀ t : ℝ, z + u.scale t + (-u).scale t = z := fun u z t => by ext <;> simp
  have hpb : p' + (-v').scale (d * (1 - τ)) = p + v.scale (d * τ) := e1 _ _ _
  have hqb : q' + (-w').scale (d * (1 - τ)) = q + w.scale (d * τ) := e1 _ _ _
  obtain ⟨t, t', x', y', b1, b2, b3, b4, b5, b6, b7, b8, r', b9, b10, b11, b12, b13⟩ :=
    C104_partial (γ := γ) ord' hM hK hR hL (a := a) (b := b) (by rw [hr]; norm_num) (p := p') (v := -v') (q := q') (w := -w') (n := n) (τ := 1 - τ) (α := -β) hd (by linarith) (by linarith)
      (by rw [hpb, hqb]; exact touch) hn hstr (by linarith) (by rw [hback]; exact fast) (by rw [hback]; exact fine) (by rw [hback]; exact closing) i hi e hT (v' := -v) (w' := -w)
      (by rw [hback, hr, hv']; ext <;> simp) (by rw [hback, hr, hw']; ext <;> simp)
  rw [hback, hr] at b13
  have e2 : 1 - (1 - τ) = τ := by ring
  rw [hpb, e2, e1] at b7
  rw [hqb, e2, e1] at b8
  exact ⟨p', v', q', w', s, s', t, t', x, y, x', y', r, r', a1, a2, a3, a4, a7, a5, a8, a6, b1, b2, b3, b4, b7, b5, b8, b6, a9, b9, by rw [a12, b12, hpb], a10, b10, by rw [a13, b13]⟩

/-- `C111_partial` speaks about something: a ball of 1 kg with 1 m/s and one of 3 kg with the opposite velocity meet after half of a step of a second. -/
example (ord : IterOrder) (i : Nat) (hi : 2 ≤ i) : ∃ (p' v' q' w' : Vec3 ℝ) (s s' t t' : System XReal γ) (x y x' y' : Entity XReal),
      Steps System.new (tableCalls (fin 1) (fin 3) 2 1 1 1 .o ⟨1, 0, 0⟩ ⟨4, 0, 0⟩ ⟨-1, 0, 0⟩ i (fin 1) (fin 1)) s ∧ s.step ord (fin 1) = .ok s' ∧
      s'.getEntity h0 = some x ∧ s'.getEntity h1 = some y ∧ x.position = p'.f ∧ x.velocity = v'.f ∧ y.position = q'.f ∧ y.velocity = w'.f ∧
      Steps System.new (tableCalls (fin 1) (fin 3) 2 1 1 1 p' (-v') q' (-w') i (fin 1) (fin 1)) t ∧ t.step ord (fin 1) = .ok t' ∧
      t'.getEntity h0 = some x' ∧ t'.getEntity h1 = some y' ∧ x'.position = (Vec3.o).f ∧ x'.velocity = (-(⟨1, 0, 0⟩ : Vec3 ℝ)).f := by
  obtain ⟨p', v', q', w', s, s', t, t', x, y, x', y', r, r', a1, a2, a3, a4, a7, a5, a8, a6, b1, b2, b3, b4, b7, b5, -⟩ :=
    C111_partial (γ := γ) ord ord (M := 1) (K := 3) (by norm_num) (by norm_num) (R := 2) (L := 1) (by norm_num) (by norm_num) (a := 1) (b := 1) (by norm_num) (p := .o) (v := ⟨1, 0, 0⟩)
      (q := ⟨4, 0, 0⟩) (w := ⟨-1, 0, 0⟩) (n := ⟨1, 0, 0⟩) (d := 1) (τ := 1 / 2) (α := 1) (by norm_num) (by norm_num) (by norm_num) (by ext <;> norm_num) (by norm_num [Vec3.dot_def])
      (by ext <;> norm_num) (by norm_num) rfl (by norm_num [Vec3.dot_def]) (by norm_num [Vec3.dot_def]) (by norm_num [Vec3.dot_def]) (by norm_num [Vec3.dot_def]) i hi (fin 1) (T := 1) (by norm_num)
  exact ⟨p', v', q', w', s, s', t, t', x, y, x', y', a1, a2, a3, a4, a7, a5, a8, a6, b1, b2, b3, b4, b7, b5⟩
end

section
open F32
variable [Libm]

/-- The entity as it is, but moving the other way. -/
def turned_back (e : Entity F32) : Entity F32 := { e with velocity := -e.velocity }

/-- **C111 is false**, in binary32: a smooth elastic ball that moves along the x axis with 4 m/s hits an equal one that rests, not head-on, and after a step of a second both velocities are
turned round with `update_entity`.  After another step of a second the second ball should rest, and the first should be where it started; but it is more than 1 m away from there, and the second
ball moves with more than 2 m/s. -/
theorem C111_false : ∃ (s s1 s2 s3 s4 : System F32 (GravityGenerator F32)) (a b a1 b1 a4 b4 : Entity F32) (x y u z : ℚ), Reachable s ∧ s.getEntity h0 = some a ∧ s.getEntity h1 = some b ∧
    a.position = vec 0 0 0 ∧ a.velocity = vec 4 0 0 ∧ b.position = ⟨num 4, num 3 2, num 0⟩ ∧ b.velocity = vec 0 0 0 ∧
    s.step .id (num 1) = .ok s1 ∧ s1.getEntity h0 = some a1 ∧ s1.getEntity h1 = some b1 ∧ s1.exec .id (.updateEntity h0 (turned_back a1)) = .ok (s2, .ok true) ∧
    s2.exec .id (.updateEntity h1 (turned_back b1)) = .ok (s3, .ok true) ∧ s3.step .id (num 1) = .ok s4 ∧ s4.getEntity h0 = some a4 ∧ s4.getEntity h1 = some b4 ∧
    Val a4.position.x x ∧ Val a4.position.y y ∧ Val b4.velocity.x u ∧ Val b4.velocity.y z ∧ 1 < x ^ 2 + y ^ 2 ∧ 4 < u ^ 2 + z ^ 2 := by
  have h : ((play (plain (cue h0 (vec 0 0 0) (vec 4 0 0) ++ cue h1 ⟨num 4, num 3 2, num 0⟩ (vec 0 0 0))) (System.new : System F32 (GravityGenerator F32))).test fun r =>
      match r.1.getEntity h0, r.1.getEntity h1 with
      | some a, some b => vecEq a.position (vec 0 0 0) && (vecEq a.velocity (vec 4 0 0) && (vecEq b.position ⟨num 4, num 3 2, num 0⟩ && (vecEq b.velocity (vec 0 0 0) &&
        (r.1.step .id (num 1)).test fun s1 => match s1.getEntity h0, s1.getEntity h1 with
        | some a1, some b1 => (s1.exec .id (.updateEntity h0 (turned_back a1))).test fun x => (match x.2 with | .ok t => t | _ => false) &&
          (x.1.exec .id (.updateEntity h1 (turned_back b1))).test fun y => (match y.2 with | .ok t => t | _ => false) &&
          (y.1.step .id (num 1)).test fun s4 => match s4.getEntity h0, s4.getEntity h1 with
          | some a4, some b4 => liesIn a4.position.x (4 / 5) 1 && (liesIn a4.position.y (-1) (-9 / 10) && (liesIn b4.velocity.x (-2) (-3 / 2) && liesIn b4.velocity.y (19 / 10) 2))
          | _, _ => false
        | _, _ => false)))
      | _, _ => false) = true := by kernel_refl
  obtain ⟨⟨s, outs⟩, hplay, h⟩ := Res.of_test h
  simp only at h
  split at h
  case h_2 => cases h
  rename_i a b g1 g2
  simp only [Bool.and_eq_true, vecEq_iff] at h
  obtain ⟨e1, e2, e3, e4, h⟩ := h
  obtain ⟨s1, hs1, h⟩ := Res.of_test h
  split at h
  case h_2 => cases h
  rename_i a1 b1 g3 g4
  obtain ⟨⟨s2, o2⟩, hs2, h⟩ := Res.of_test h
  simp only [Bool.and_eq_true] at h
  obtain ⟨h2, h⟩ := h
  obtain ⟨⟨s3, o3⟩, hs3, h⟩ := Res.of_test h
  simp only [Bool.and_eq_true] at h
  obtain ⟨h3, h⟩ := h
  obtain ⟨s4, hs4, h⟩ := Res.of_test h
  split at h
  case h_2 => cases h
  rename_i a4 b4 g5 g6
  simp only [Bool.and_eq_true] at h
  obtain ⟨f1, f2, f3, f4⟩ := h
  obtain ⟨x, v1, l1, u1⟩ := lies_iff f1
  obtain ⟨y, v2, l2, u2⟩ := lies_iff f2
  obtain ⟨u, v3, l3, u3⟩ := lies_iff f3
  obtain ⟨z, v4, l4, u4⟩ := lies_iff f4
  have i2 : o2 = .ok true := by split at h2; · subst h2; rfl
                                · cases h2
  have i3 : o3 = .ok true := by split at h3; · subst h3; rfl
                                · cases h3
  subst i2 i3
  exact ⟨s, s1, s2, s3, s4, a, b, a1, b1, a4, b4, x, y, u, z, play_reachable hplay, g1, g2, e1, e2, e3, e4, hs1, g3, g4, hs2, hs3, hs4, g5, g6, v1, v2, v3, v4, by nlinarith, by nlinarith⟩
end
end Fluffy.Props
