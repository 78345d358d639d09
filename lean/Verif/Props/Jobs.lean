import Verif.Props.Jointly
import Verif.Proofs.Total
import Verif.Props.Undo
/-
C112: calls that concern different colliders can be made in either order.
-/
set_option linter.unusedSectionVars false
set_option linter.unusedSimpArgs false
namespace Fluffy.Props
open Fluffy InternalEntity

section
variable {α : Type} [Scalar α] {γ : Type} [ForceGenerator α γ]

/-- The collider a call of `update_collider` or `link_collider` is about. -/
def onCollider : Op α γ → Option Handle
  | .updateCollider h _ => some h
  | .linkCollider c _ => some c
  | _ => none

/-- The bodies such a call concerns: the one the collider is on, and the one it is to be put on. -/
def Concerns (s : System α γ) (op : Op α γ) (k : Handle) : Prop :=
  (∃ c C, onCollider op = some c ∧ s.getCollider c = some C ∧ C.entity = some k) ∨ ∃ c, op = .linkCollider c (some k)

/-- The call has no effect. -/
def Declined (s : System α γ) : Op α γ → Prop
  | .updateCollider h x => ∀ C, s.colliders.get h = some C → C.updateFrom x = .wrongType
  | .linkCollider c eh => s.colliders.get c = none ∨ ∃ h, eh = some h ∧ s.entities.get h = none
  | _ => False

/-- The collider after the call. -/
def jobCollider (C : Collider α) : Op α γ → Collider α
  | .updateCollider _ x => match C.updateFrom x with | .updated C' => C' | _ => C
  | .linkCollider _ eh => C.setEntity eh
  | _ => C

/-- Whether the call says that it went well. -/
def jobOk (C : Collider α) : Op α γ → Bool
  | .updateCollider _ x => match C.updateFrom x with | .updated _ => true | _ => false
  | _ => true

/-- How the list of colliders of body `k` changes, if its mass is computed anew. -/
def jobList (C : Collider α) (k : Handle) : Op α γ → Option (List Handle → List Handle)
  | .updateCollider _ _ => if C.entity = some k then some id else none
  | .linkCollider c eh => if eh = some k then some (fun l => hsInsert l c) else if C.entity = some k then some (fun l => hsRemove l c) else none
  | _ => none

theorem set_get_same {τ : Type} {a : Arena τ} {c : Handle} {C : τ} (hc : a.get c = some C) : a.set c C = a := by
  refine Arena.ext_get (Arena.sameShape_set _ _ _) fun j => ?_
  rw [Arena.get_set]
  split
  · rename_i h; subst h; simp [hc]
  · rfl

theorem job_declined {s : System α γ} {p : Op α γ} (hd : Declined s p) (ord : IterOrder) : s.exec ord p = .ok (s, .ok false) := by
  cases p with
  | updateCollider h x =>
    simp only [System.exec, System.updateCollider]
    cases hC : s.colliders.get h with
    | none => rfl
    | some C => simp only [show C.updateFrom x = .wrongType from hd C hC]; rfl
  | linkCollider c eh =>
    simp only [System.exec, System.linkCollider]
    rcases hd with hd | ⟨h, rfl, hd⟩
    · simp [Arena.contains, hd]
    · cases hC : s.colliders.contains c <;> simp [hd]
  | _ => exact hd.elim

theorem job_done {s : System α γ} (inv : System.Inv s) {p : Op α γ} {c : Handle} (hp : onCollider p = some c) (hd : ¬ Declined s p) (ord : IterOrder) :
    ∃ C s', s.colliders.get c = some C ∧ s.exec ord p = .ok (s', .ok (jobOk C p)) ∧
      s' = { s with colliders := s.colliders.set c (jobCollider C p), entities := s'.entities } ∧ Arena.SameShape s'.entities s.entities ∧
      ∀ k F, s.entities.get k = some F → ∃ F', s'.entities.get k = some F' ∧
        (jobList C k p = none → F' = F) ∧
        ∀ l, jobList C k p = some l →
          recalculateMass (ord.colliders k (l F.colliders)) (s.colliders.set c (jobCollider C p)) { F with colliders := l F.colliders } = .ok F' := by
  cases p with
  | updateCollider h x =>
    cases hp
    obtain ⟨⟨s', b⟩, hu⟩ := System.updateCollider_total inv ord c x
    have refreshed : ∀ {m s' : System α γ} {C : Collider α}, m.entities = s.entities → System.refreshEntity ord m C.entity = .ok s' →
        s' = { m with entities := s'.entities } ∧ Arena.SameShape s'.entities s.entities ∧
        ∀ k F, s.entities.get k = some F → ∃ F', s'.entities.get k = some F' ∧ ((if C.entity = some k then some id else none : Option (List Handle → List Handle)) = none → F' = F) ∧
          ∀ l, (if C.entity = some k then some id else none : Option (List Handle → List Handle)) = some l →
            recalculateMass (ord.colliders k (l F.colliders)) m.colliders { F with colliders := l F.colliders } = .ok F' := by
      intro m s' C hm hf
      rcases System.refreshEntity_spec hf with ⟨rfl, hno⟩ | ⟨h, E, E', he, hE, hr, rfl⟩
      · refine ⟨rfl, by rw [hm]; exact .refl _, fun k F hF => ⟨F, by rw [hm]; exact hF, fun _ => rfl, fun l hl => ?_⟩⟩
        split at hl
        · rename_i hk
          have := hno k hk
          rw [hm, hF] at this; cases this
        · cases hl
      · refine ⟨rfl, by rw [hm]; exact Arena.sameShape_set _ _ _, fun k F hF => ?_⟩
        by_cases hk : k = h
        · subst hk
          rw [hm, hF] at hE; cases hE
          refine ⟨E', by rw [hm]; exact Arena.get_set_self hF _, fun hn => ?_, fun l hl => ?_⟩
          · rw [if_pos he] at hn; cases hn
          · rw [if_pos he] at hl; cases hl; exact hr
        · refine ⟨F, by simp only; rw [hm, Arena.get_set_ne hk]; exact hF, fun _ => rfl, fun l hl => ?_⟩
          rw [if_neg (by rw [he]; simpa using fun e => hk e.symm)] at hl; cases hl
    have hx : s.exec ord (.updateCollider c x) = .ok (s', .ok b) := by simp only [System.exec, hu]; rfl
    rcases System.updateCollider_spec hu with ⟨-, -, hno⟩ | ⟨rfl, C, hC, hv, hf⟩ | ⟨rfl, C, C', hC, hv, hf⟩
    · exact absurd hno hd
    · obtain ⟨r1, r2, r3⟩ := refreshed rfl hf
      refine ⟨C, s', hC, by simp only [jobOk, hv]; exact hx, ?_, r2, ?_⟩
      · simp only [jobCollider, hv, set_get_same hC]; exact r1
      · simp only [jobCollider, hv, set_get_same hC, jobList]; exact r3
    · obtain ⟨r1, r2, r3⟩ := refreshed (m := { s with colliders := s.colliders.set c C' }) rfl hf
      refine ⟨C, s', hC, by simp only [jobOk, hv]; exact hx, ?_, r2, ?_⟩
      · simp only [jobCollider, hv]; exact r1
      · simp only [jobCollider, hv, jobList]; exact r3
  | linkCollider c' eh =>
    cases hp
    obtain ⟨⟨s', b⟩, hu⟩ := System.linkCollider_total inv ord c eh
    have hx : s.exec ord (.linkCollider c eh) = .ok (s', .ok b) := by simp only [System.exec, hu]; rfl
    rcases System.linkCollider_spec inv hu with ⟨-, -, hno⟩ | ⟨rfl, C, hC, hlive, hs', hshape, hev⟩
    · exact absurd hno hd
    · refine ⟨C, s', hC, hx, hs', hshape, fun k F hF => ?_⟩
      obtain ⟨F', hF', h1, h2, h3⟩ := hev k F hF
      refine ⟨F', hF', fun hn => ?_, fun l hl => ?_⟩
      · simp only [jobList] at hn
        split at hn
        · cases hn
        · split at hn
          · cases hn
          · exact h1 (by assumption) (by assumption)
      · simp only [jobList] at hl
        split at hl
        · cases hl; exact h2 (by assumption)
        · split at hl
          · cases hl; exact h3 (by assumption) (by assumption)
          · cases hl
  | _ => cases hp

/-- A job is declined or not whatever has been done to another collider. -/
theorem declined_after {s s' : System α γ} {p : Op α γ} {c : Handle} (hp : onCollider p = some c) (hc : s'.colliders.get c = s.colliders.get c)
    (he : Arena.SameShape s'.entities s.entities) : Declined s' p ↔ Declined s p := by
  cases p with
  | updateCollider h x => cases hp; simp only [Declined, hc]
  | linkCollider c' eh =>
    cases hp
    simp only [Declined, hc]
    have : ∀ h, s'.entities.get h = none ↔ s.entities.get h = none := fun h => by
      have := he.isSome h
      cases h1 : s'.entities.get h <;> cases h2 : s.entities.get h <;> simp_all
    simp only [this]
  | _ => cases hp

theorem jobList_concerns {s : System α γ} {p : Op α γ} {c : Handle} {C : Collider α} (hp : onCollider p = some c) (hC : s.colliders.get c = some C) {k : Handle} :
    jobList C k p = none ↔ ¬ Concerns s p k := by
  have hg : (∃ c' C', onCollider p = some c' ∧ s.getCollider c' = some C' ∧ C'.entity = some k) ↔ C.entity = some k := by
    simp only [hp, Option.some.injEq, getCollider_eq]
    constructor
    · rintro ⟨c', C', rfl, h, he⟩; rw [hC] at h; cases h; exact he
    · exact fun h => ⟨c, C, rfl, hC, h⟩
  unfold Concerns
  rw [hg]
  cases p with
  | updateCollider h x => simp [jobList]
  | linkCollider c' eh =>
    cases hp
    simp only [jobList]
    by_cases h1 : eh = some k
    · simp [h1]
    · by_cases h2 : C.entity = some k <;> simp [h1, h2]
  | _ => cases hp

theorem jobList_mem {p : Op α γ} {c : Handle} {C : Collider α} (hp : onCollider p = some c) {k : Handle} {l : List Handle → List Handle} (hl : jobList C k p = some l) {r : List Handle} {t : Handle}
    (ht : t ∈ l r) : t ∈ r ∨ t = c := by
  cases p with
  | updateCollider h x =>
    simp only [jobList] at hl
    split at hl
    · cases hl; exact Or.inl ht
    · cases hl
  | linkCollider c' eh =>
    cases hp
    simp only [jobList] at hl
    split at hl
    · cases hl; exact mem_hsInsert.mp ht
    · split at hl
      · cases hl; exact Or.inl (mem_hsRemove.mp ht).1
      · cases hl
  | _ => cases hp

/-- **C112.** In any arithmetic: calls of `update_collider` and `link_collider` that are about different colliders and concern different bodies can be made in either order: neither
panics, both say the same, and the systems are equal in every respect. -/
theorem C112_partial {s : System α γ} (hr : Reachable s) {p q : Op α γ} {c d : Handle} (hp : onCollider p = some c) (hq : onCollider q = some d) (hne : c ≠ d)
    (hb : ∀ k, Concerns s p k → ¬ Concerns s q k) (o1 o2 : IterOrder) :
    ∃ a b t x y, s.exec o1 p = .ok (a, x) ∧ a.exec o2 q = .ok (t, y) ∧ s.exec o2 q = .ok (b, y) ∧ b.exec o1 p = .ok (t, x) := by
  have inv := hr.inv
  by_cases dp : Declined s p
  · by_cases dq : Declined s q
    · exact ⟨s, s, s, _, _, job_declined dp _, job_declined dq _, job_declined dq _, job_declined dp _⟩
    · obtain ⟨D, b, hD, hx, hs', hsh, -⟩ := job_done inv hq dq o2
      refine ⟨s, b, b, _, _, job_declined dp _, hx, hx, job_declined ((declined_after hp ?_ hsh).mpr dp) _⟩
      rw [hs', Arena.get_set_ne hne]
  obtain ⟨C, a, hC, ha, ha', hash, hak⟩ := job_done inv hp dp o1
  by_cases dq : Declined s q
  · refine ⟨a, s, a, _, _, ha, job_declined ((declined_after hq ?_ hash).mpr dq) _, job_declined dq _, ha⟩
    rw [ha', Arena.get_set_ne (Ne.symm hne)]
  obtain ⟨D, b, hD, hb1, hb', hbsh, hbk⟩ := job_done inv hq dq o2
  have aD : a.colliders.get d = s.colliders.get d := by rw [ha', Arena.get_set_ne (Ne.symm hne)]
  have bC : b.colliders.get c = s.colliders.get c := by rw [hb', Arena.get_set_ne hne]
  obtain ⟨D', t, hD', ht, ht', htsh, htk⟩ := job_done (reached_after hr ha).inv hq (fun h => dq ((declined_after hq aD hash).mp h)) o2
  obtain ⟨C', t', hC', hu, hu', hush, huk⟩ := job_done (reached_after hr hb1).inv hp (fun h => dp ((declined_after hp bC hbsh).mp h)) o1
  rw [aD, hD] at hD'; cases hD'
  rw [bC, hC] at hC'; cases hC'
  -- the colliders
  have cols : t.colliders = t'.colliders := by
    rw [ht', hu', ha', hb']
    refine Arena.ext_get ?_ fun j => ?_
    · exact ((Arena.sameShape_set _ _ _).trans (Arena.sameShape_set _ _ _)).trans ((Arena.sameShape_set _ _ _).trans (Arena.sameShape_set _ _ _)).symm
    · simp only [Arena.get_set]
      by_cases h1 : j = c
      · subst h1; simp [hne]
      · by_cases h2 : j = d
        · subst h2; simp [Ne.symm hne, h1]
        · simp [h1, h2]
  -- what one of the jobs computes is not changed by the other one
  have apart : ∀ {p q : Op α γ} {c d : Handle} {C D D' : Collider α}, onCollider p = some c → onCollider q = some d → c ≠ d → s.colliders.get c = some C → s.colliders.get d = some D →
      (∀ k, Concerns s p k → ¬ Concerns s q k) → ∀ {k : Handle} {F : InternalEntity α} {l : List Handle → List Handle} {o : IterOrder}, s.entities.get k = some F → jobList C k p = some l →
      ∀ (X : InternalEntity α), recalculateMass (o.colliders k (l F.colliders)) ((s.colliders.set d D').set c (jobCollider C p)) X =
        recalculateMass (o.colliders k (l F.colliders)) (s.colliders.set c (jobCollider C p)) X := by
    intro p q c d C D D' hp hq hne hC hD hb k F l o hF hl X
    refine recalculateMass_congr X fun t ht => ?_
    have ht := jobList_mem hp hl ((o.colliders_perm k _).mem_iff.mp ht)
    have hd : t ≠ d := by
      rintro rfl
      rcases ht with ht | ht
      · obtain ⟨D2, h2, h3⟩ := (inv.links k F t hF).mp ht
        have hc : Concerns s p k := by
          by_contra hn
          rw [(jobList_concerns hp hC).mpr hn] at hl; cases hl
        exact hb k hc (Or.inl ⟨t, D2, hq, by rw [getCollider_eq]; exact h2, h3⟩)
      · exact hne ht.symm
    congr 1
    by_cases hc : t = c
    · subst hc
      rw [Arena.get_set_self hC, Arena.get_set_self (by rw [Arena.get_set_ne hd]; exact hC)]
    · rw [Arena.get_set_ne hc, Arena.get_set_ne hc, Arena.get_set_ne hd]
  have ents : t.entities = t'.entities := by
    refine Arena.ext_get ((htsh.trans hash).trans (hush.trans hbsh).symm) fun k => ?_
    cases hF : s.entities.get k with
    | none =>
      have e1 := (htsh.trans hash).isSome k
      have e2 := (hush.trans hbsh).isSome k
      rw [hF] at e1 e2
      simp only [Option.isSome_none, Option.isSome_eq_false_iff, Option.isNone_iff_eq_none] at e1 e2
      rw [e1, e2]
    | some F =>
      obtain ⟨A, hA, n1, m1⟩ := hak k F hF
      obtain ⟨B, hB, n2, m2⟩ := hbk k F hF
      obtain ⟨T, hT, n3, m3⟩ := htk k A hA
      obtain ⟨U, hU, n4, m4⟩ := huk k B hB
      rw [hT, hU]
      congr 1
      cases hl : jobList C k p with
      | none =>
        rw [n4 hl]
        have := n1 hl; subst this
        cases hm : jobList D k q with
        | none => rw [n3 hm, n2 hm]
        | some m =>
          have e1 := m2 m hm
          have e2 := m3 m hm
          rw [ha', apart hq hp (Ne.symm hne) hD hC (fun k h1 h2 => hb k h2 h1) hF hm, e1] at e2
          cases e2; rfl
      | some l =>
        have hm : jobList D k q = none := by
          rw [jobList_concerns hq hD]
          refine hb k (by_contra fun hn => ?_)
          rw [(jobList_concerns hp hC).mpr hn] at hl; cases hl
        rw [n3 hm]
        have := n2 hm; subst this
        have e1 := m1 l hl
        have e2 := m4 l hl
        rw [hb', apart hp hq hne hC hD hb hF hl, e1] at e2
        cases e2; rfl
  have same : t = t' := by
    rw [ht', hu']
    rw [ht', hu'] at cols
    simp only at cols
    rw [cols, ents, ha', hb']
  exact ⟨a, b, t, _, _, ha, ht, hb1, same ▸ hu⟩
/-- Such calls never panic, and leave all other colliders alone. -/
theorem job_total {s : System α γ} (hr : Reachable s) {p : Op α γ} {c : Handle} (hp : onCollider p = some c) (ord : IterOrder) :
    ∃ a x, s.exec ord p = .ok (a, x) ∧ ∀ d, d ≠ c → a.getCollider d = s.getCollider d := by
  by_cases dp : Declined s p
  · exact ⟨s, _, job_declined dp ord, fun _ _ => rfl⟩
  · obtain ⟨C, a, -, ha, ha', -⟩ := job_done hr.inv hp dp ord
    refine ⟨a, _, ha, fun d hd => ?_⟩
    rw [getCollider_eq, getCollider_eq, ha', Arena.get_set_ne hd]

/-- The calls are about different colliders and concern different bodies. -/
def Asunder (s : System α γ) (p q : Op α γ) : Prop := onCollider p ≠ onCollider q ∧ ∀ k, Concerns s p k → ¬ Concerns s q k

theorem Asunder.symm {s : System α γ} {p q : Op α γ} (h : Asunder s p q) : Asunder s q p := ⟨Ne.symm h.1, fun k h1 h2 => h.2 k h2 h1⟩

theorem concerns_after {s a : System α γ} {c : Handle} (ha : ∀ d, d ≠ c → a.getCollider d = s.getCollider d) {q : Op α γ} (hq : onCollider q ≠ some c) {k : Handle} :
    Concerns a q k ↔ Concerns s q k := by
  unfold Concerns
  refine or_congr_left ⟨?_, ?_⟩
  · rintro ⟨d, D, h1, h2, h3⟩
    exact ⟨d, D, h1, by rw [← ha d (fun e => hq (e ▸ h1))]; exact h2, h3⟩
  · rintro ⟨d, D, h1, h2, h3⟩
    exact ⟨d, D, h1, by rw [ha d (fun e => hq (e ▸ h1))]; exact h2, h3⟩

theorem jobs_total : ∀ {l : List (IterOrder × Op α γ)} {s : System α γ}, Reachable s → (∀ x ∈ l, ∃ c, onCollider x.2 = some c) → ∃ r, play l s = .ok r
  | [], s, _, _ => ⟨_, rfl⟩
  | (o, p) :: l, s, hr, hl => by
    obtain ⟨c, hc⟩ := hl (o, p) (by simp)
    obtain ⟨a, x, ha, -⟩ := job_total hr hc o
    obtain ⟨r, h⟩ := jobs_total (l := l) (reached_after hr ha) (fun y hy => hl y (by simp [hy]))
    exact ⟨_, by simp only [play, ha, h, Res.ok_bind]; rfl⟩

/-- **C112, for any number of calls.** In any arithmetic: calls of `update_collider` and `link_collider` that are about different colliders and concern different bodies can be made in
any order: none panics, each says the same, and the systems are equal in every respect.  The two calls of the example below meet the hypotheses. -/
theorem C112_all_partial {l l' : List (IterOrder × Op α γ)} (hp : l.Perm l') : ∀ {s : System α γ}, Reachable s → (∀ x ∈ l, ∃ c, onCollider x.2 = some c) →
    l.Pairwise (fun x y => Asunder s x.2 y.2) →
    ∃ t outs outs', play l s = .ok (t, outs) ∧ play l' s = .ok (t, outs') ∧ (l.zip outs).Perm (l'.zip outs') := by
  induction hp with
  | nil => exact fun _ _ _ => ⟨_, [], [], rfl, rfl, .refl _⟩
  | @cons x l l' _ ih =>
    intro s hr hj ha
    obtain ⟨o, p⟩ := x
    obtain ⟨c, hc⟩ := hj (o, p) (by simp)
    obtain ⟨a, y, hy, hrest⟩ := job_total hr hc o
    rw [List.pairwise_cons] at ha
    obtain ⟨t, outs, outs', h1, h2, h3⟩ := ih (reached_after hr hy) (fun z hz => hj z (by simp [hz])) (by
      refine List.Pairwise.imp_of_mem ?_ ha.2
      rintro u v hu hv ⟨e1, e2⟩
      have n1 : onCollider u.2 ≠ some c := fun e => (ha.1 u hu).1 (hc.trans e.symm)
      have n2 : onCollider v.2 ≠ some c := fun e => (ha.1 v hv).1 (hc.trans e.symm)
      exact ⟨e1, fun k k1 k2 => e2 k ((concerns_after hrest n1).mp k1) ((concerns_after hrest n2).mp k2)⟩)
    exact ⟨t, y :: outs, y :: outs', by simp only [play, hy, h1, Res.ok_bind], by simp only [play, hy, h2, Res.ok_bind], by simpa using h3⟩
  | swap x y l =>
    intro s hr hj ha
    obtain ⟨o, p⟩ := x
    obtain ⟨o', q⟩ := y
    obtain ⟨c, hc⟩ := hj (o, p) (by simp)
    obtain ⟨d, hd⟩ := hj (o', q) (by simp)
    simp only [List.pairwise_cons, List.mem_cons] at ha
    have hap := ha.1 (o, p) (Or.inl rfl)
    obtain ⟨a, b, t, x, y, h1, h2, h3, h4⟩ := C112_partial hr hd hc (fun e => hap.1 (by rw [hc, hd, e])) hap.2 o' o
    obtain ⟨r, hrest⟩ := jobs_total (l := l) (reached_after (reached_after hr h1) h2) (fun z hz => hj z (by simp [hz]))
    refine ⟨r.1, x :: y :: r.2, y :: x :: r.2, by simp only [play, h1, h2, hrest, Res.ok_bind], by simp only [play, h3, h4, hrest, Res.ok_bind], ?_⟩
    exact .swap _ _ _
  | trans hp1 hp2 ih1 ih2 =>
    intro s hr hj ha
    obtain ⟨t, o1, o2, h1, h2, h3⟩ := ih1 hr hj ha
    obtain ⟨t', o3, o4, h4, h5, h6⟩ := ih2 hr (fun x hx => hj x (hp1.mem_iff.mpr hx)) ((hp1.pairwise_iff (fun h => h.symm)).mp ha)
    rw [h2] at h4; cases h4
    exact ⟨t, o1, o4, h1, h5, h3.trans h6⟩
end

section
open F32 Demo
variable [Libm]

/-- `C112_partial` speaks about something: two bodies with a ball each; the first ball is made heavier, the second one is taken off. -/
example : ∃ (s : System F32 (GravityGenerator F32)) (x : Collider F32), Reachable s ∧
    onCollider (.updateCollider h0 x : Op F32 (GravityGenerator F32)) = some h0 ∧ onCollider (.linkCollider h1 none : Op F32 (GravityGenerator F32)) = some h1 ∧ h0 ≠ h1 ∧
    Concerns s (.updateCollider h0 x) h0 ∧ Concerns s (.linkCollider h1 none) h1 ∧ (∀ k, Concerns s (.updateCollider h0 x) k → ¬ Concerns s (.linkCollider h1 none) k) ∧
    ∃ a b, s.exec .id (.updateCollider h0 x) = .ok (a, .ok true) ∧ s.exec .id (.linkCollider h1 none) = .ok (b, .ok true) := by
  have h : ((play (plain clump) (System.new : System F32 (GravityGenerator F32))).test fun r =>
      ((r.1.getCollider h0).map fun C => C.entity) == some (some h0) && ((r.1.getCollider h1).map fun C => C.entity) == some (some h1) &&
      ((r.1.exec .id (.updateCollider h0 (ball (vec 0 0 0) (num 1) (num 5) (num 0)))).test fun a => match a.2 with | .ok t => t | _ => false) &&
      (r.1.exec .id (.linkCollider h1 none)).test fun a => match a.2 with | .ok t => t | _ => false) = true := by kernel_refl
  obtain ⟨⟨s, outs⟩, hplay, h⟩ := Res.of_test h
  simp only [Bool.and_eq_true, beq_iff_eq, Option.map_eq_some_iff] at h
  obtain ⟨⟨⟨⟨C, hC, hC'⟩, D, hD, hD'⟩, k1⟩, k2⟩ := h
  obtain ⟨⟨a, x⟩, ha, hx⟩ := Res.of_test k1
  obtain ⟨⟨b, y⟩, hb, hy⟩ := Res.of_test k2
  have ex : x = .ok true := by
    simp only at hx
    split at hx
    · rw [hx]
    · cases hx
  have ey : y = .ok true := by
    simp only at hy
    split at hy
    · rw [hy]
    · cases hy
  subst ex ey
  refine ⟨s, _, play_reachable hplay, rfl, rfl, by decide, Or.inl ⟨h0, C, rfl, hC, hC'⟩, Or.inl ⟨h1, D, rfl, hD, hD'⟩, ?_, a, b, ha, hb⟩
  rintro k (⟨c, C2, hc, g, e⟩ | ⟨c, hc⟩) (⟨d, D2, hd, g', e'⟩ | ⟨d, hd⟩)
  · cases hc; cases hd
    rw [hC] at g; cases g
    rw [hD] at g'; cases g'
    rw [hC'] at e; rw [hD'] at e'
    cases e; cases e'
  · cases hd
  · cases hc
  · cases hc

/-- A body, and two balls that are not yet on it. -/
def kit : List (Op F32 (GravityGenerator F32)) :=
  [.addEntity (thing (num 1) (vec 1 0 0) (vec 0 0 0)), .addCollider (ball (vec 3 0 0) (num 1) (num 2) (num 0)), .addCollider (ball (vec (-5) 0 0) (num 1) (num 3) (num 0))]

/-- **C112 is false** in binary32 if both calls concern the same body: it depends on the order in which two balls are put on a body where the body is in the end. -/
theorem C112_false : ∃ (s a t b t' : System F32 (GravityGenerator F32)) (x y x' y' : Out (GravityGenerator F32)) (e e' : Entity F32), Reachable s ∧
    s.exec .id (.linkCollider h0 (some h0)) = .ok (a, x) ∧ a.exec .id (.linkCollider h1 (some h0)) = .ok (t, y) ∧
    s.exec .id (.linkCollider h1 (some h0)) = .ok (b, y') ∧ b.exec .id (.linkCollider h0 (some h0)) = .ok (t', x') ∧
    t.getEntity h0 = some e ∧ t'.getEntity h0 = some e' ∧ Val e.position.x (-838861 / 1048576) ∧ Val e'.position.x (-3355443 / 4194304) := by
  have h : ((play (plain kit) (System.new : System F32 (GravityGenerator F32))).test fun r =>
      inTurn r.1 (.linkCollider h0 (some h0)) (.linkCollider h1 (some h0)) (fun _ s => placedAt s h0 (-838861 / 1048576)) &&
      inTurn r.1 (.linkCollider h1 (some h0)) (.linkCollider h0 (some h0)) (fun _ s => placedAt s h0 (-3355443 / 4194304))) = true := by kernel_refl
  obtain ⟨⟨s, outs⟩, hplay, h⟩ := Res.of_test h
  simp only [Bool.and_eq_true] at h
  obtain ⟨a, x, t, y, e1, e2, e3⟩ := inTurn_iff h.1
  obtain ⟨b, y', t', x', e4, e5, e6⟩ := inTurn_iff h.2
  obtain ⟨e, he, hv⟩ := placedAt_iff e3
  obtain ⟨e', he', hv'⟩ := placedAt_iff e6
  exact ⟨s, a, t, b, t', x, y, x', y', e, e', play_reachable hplay, e1, e2, e4, e5, he, he', hv, hv'⟩
end
end Fluffy.Props
