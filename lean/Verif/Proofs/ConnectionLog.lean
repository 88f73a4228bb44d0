import Verif.Proofs.ConnectionOrder

/-!
# What was observed stays observed; how a reconnect loop goes on
-/

namespace Zcc.Conn

open Zcc Spec

/-! ## The notes only grow -/

theorem closeLink_log (s : St) (l : Nat) : s.log <+: (s.closeLink l).log := by
  unfold St.closeLink
  dsimp only
  split
  · exact List.prefix_append _ _
  · exact List.prefix_rfl

theorem closeApi_log (s : St) : s.log <+: s.closeApi.log := by
  rcases closeApi_cases s with h | ⟨l, h⟩
  · rw [h]; exact List.prefix_rfl
  · rw [h]; exact closeLink_log s l

theorem closeOwn_log (s : St) (t : Nat) : s.log <+: (s.closeOwn t).log := by
  rcases closeOwn_cases s t with h | ⟨l, h⟩
  · rw [h]; exact List.prefix_rfl
  · rw [h]; exact closeLink_log s l

theorem ended_log {s s' : St} {t : Nat} {hist : List Act} (h : Ended s t hist s') : s.log <+: s'.log := by
  cases h with
  | next => exact List.prefix_rfl
  | returned => exact List.prefix_rfl
  | raised => exact List.prefix_rfl
  | found => exact closeOwn_log s t
  | notFound => exact closeOwn_log s t
  | again => exact closeApi_log s

theorem resume_log (c : Config) (s : St) (t : Nat) (a : Act) : s.log <+: (s.resume c t a).log := by
  rcases resume_ended c s t a with h | h
  · rw [h]; exact List.prefix_rfl
  · exact ended_log h

theorem connect_log (c : Config) (s : St) (t : Nat) (ports : List PortInfo) (opens : Option PyErr) (d : Nat) :
    s.log <+: (s.connect c t ports opens d).log := by
  unfold St.connect
  dsimp only
  split
  · exact List.prefix_append _ _
  · exact resume_log c ((({ s with nlinks := s.nlinks + 1, now := s.now + d } : St).setLink s.nlinks
      { owner := t }).setTask t { s.tasks t with pc := .connecting, link := some s.nlinks, hist := [] }) t _
  · exact resume_log c ((({ s with nlinks := s.nlinks + 1, now := s.now + d } : St).setLink s.nlinks
      { owner := t }).setTask t { s.tasks t with pc := .connecting, link := some s.nlinks, hist := [] }) t _

theorem lost_log (s : St) (l : Nat) : s.log <+: (s.lost l).log := by
  unfold St.lost
  dsimp only
  split
  · split
    · exact List.prefix_append _ _
    · exact List.prefix_append _ _
  · exact List.prefix_rfl

theorem step_log (c : Config) (s : St) (ev : Ev) : s.log <+: (step c s ev).log := by
  unfold step
  split
  · exact List.prefix_rfl
  · exact List.prefix_rfl
  · exact List.prefix_rfl
  · exact closeApi_log s
  · split
    · unfold St.begin
      split
      · exact closeApi_log s
      · split
        · exact connect_log ..
        · exact List.prefix_rfl
      · exact connect_log ..
      · exact connect_log ..
      · exact List.prefix_rfl
    · exact List.prefix_rfl
  · dsimp only
    split
    · exact List.prefix_rfl
    · exact List.prefix_rfl
  · split
    · split
      · exact List.prefix_append _ _
      · exact List.prefix_rfl
    · exact List.prefix_rfl
  · split
    · split
      · unfold St.connected
        split
        · exact resume_log c (s.setLink _ _) _ _
        · exact resume_log c ({ s.setLink _ _ with api := _ }) _ _
        · exact List.prefix_rfl
      · exact List.prefix_rfl
    · exact List.prefix_rfl
  · split
    · exact resume_log ..
    · exact List.prefix_rfl
  · split
    · exact List.prefix_rfl
    · split
      · exact ended_log (fail_ended' _ _ _)
      · exact List.prefix_rfl
  · split
    · exact List.prefix_rfl
    · split
      · exact ended_log (fail_ended' _ _ _)
      · exact List.prefix_rfl
    · exact List.prefix_rfl
  · dsimp only
    split
    · exact List.prefix_rfl
    · exact List.prefix_rfl
  · split
    · exact lost_log s _
    · exact List.prefix_rfl

theorem run_log (c : Config) (a b : List Ev) : (run c a).log <+: (run c (a ++ b)).log := by
  induction b using list_induction with
  | h0 => rw [List.append_nil]; exact List.prefix_rfl
  | hs b ev ih =>
    rw [← List.append_assoc, run_snoc]
    exact ih.trans (step_log c _ ev)

theorem count_prefix {a b : List Note} (h : a <+: b) (n : Note) : a.count n ≤ b.count n := by
  obtain ⟨x, rfl⟩ := h
  rw [List.count_append]
  exact Nat.le_add_right _ _

/-! ## The reconnect loop -/

theorem setPc_pc (s : St) (t : Nat) (pc : Pc) : ((s.setPc t pc).tasks t).pc = pc := by
  show (upd s.tasks t _ t).pc = _
  rw [upd_same]

theorem setTask_same (s : St) (t : Nat) (k : Task) : (s.setTask t k).tasks t = k := upd_same _ _ _

theorem fail_reconnect {s : St} {t : Nat} {e : PyErr} (hk : (s.tasks t).kind = .reconnect)
    (he : e ≠ .cancelledError) : s.fail t e = s.closeApi.setPc t (.waking (s.now + 5000)) := by
  unfold St.fail
  rw [hk]
  exact if_neg he

theorem closeApi_shut {c : Config} {s : St} (hi : Inv c s) {l : Nat} (ha : s.api = some l)
    (hu : (s.links l).uart = true ∨ Note.closed l ∈ s.log) : (s.closeApi.links l).transport ≠ .opened := by
  unfold St.closeApi
  rw [ha]
  dsimp only
  rcases hu with hu | hu
  · unfold St.closeLink
    dsimp only
    rw [if_pos hu]
    simp only [St.note, St.setLink, upd_same]
    split
    · exact nofun
    · assumption
  · have := ((hi.link l).closed hu).2.2
    unfold St.closeLink
    dsimp only
    rw [if_neg (by rw [this.1]; exact nofun)]
    exact this.2

/-- `connect` returned for this connection, or it was closed since. -/
def Known (s : St) (l : Nat) : Prop := (s.links l).uart = true ∨ Note.closed l ∈ s.log

theorem known_congr {s s' : St} {l : Nat} (h : Known s l) (hu : (s'.links l).uart = (s.links l).uart)
    (hl : s.log <+: s'.log) : Known s' l := by
  rcases h with h | h
  · exact .inl (hu.trans h)
  · exact .inr (hl.subset h)

theorem known_setLink {s : St} {l l' : Nat} {k : Link} (h : Known s l)
    (hk : (s.links l').uart = true → k.uart = true) : Known (s.setLink l' k) l := by
  by_cases he : l = l'
  · subst he
    rcases h with h | h
    · left
      show (upd s.links l k l).uart = true
      rw [upd_same]
      exact hk h
    · exact .inr h
  · refine known_congr h ?_ List.prefix_rfl
    show (upd s.links l' k l).uart = _
    rw [upd_other he]

theorem known_close {s : St} {l l' : Nat} (h : Known s l) : Known (s.closeLink l') l := by
  by_cases he : l = l'
  · subst he
    unfold St.closeLink
    dsimp only
    split
    · exact .inr (List.mem_append_right _ (List.mem_singleton_self _))
    · exact h
  · exact known_congr h (by rw [closeLink_links he]) (closeLink_log s l')

theorem known_closeApi {s : St} {l : Nat} (h : Known s l) : Known s.closeApi l := by
  rcases closeApi_cases s with hh | ⟨l', hh⟩
  · rwa [hh]
  · rw [hh]; exact known_close h

theorem known_closeOwn {s : St} {t l : Nat} (h : Known s l) : Known (s.closeOwn t) l := by
  rcases closeOwn_cases s t with hh | ⟨l', hh⟩
  · rwa [hh]
  · rw [hh]; exact known_close h

theorem known_ended {s s' : St} {t l : Nat} {hist : List Act} (he : Ended s t hist s') (h : Known s l) :
    Known s' l := by
  cases he with
  | next => exact h
  | returned => exact h
  | raised => exact h
  | found => exact known_closeOwn h
  | notFound => exact known_closeOwn h
  | again => exact known_closeApi h

theorem known_resume {c : Config} {s : St} {t l : Nat} {a : Act} (h : Known s l) : Known (s.resume c t a) l := by
  rcases resume_ended c s t a with hh | hh
  · rwa [hh]
  · exact known_ended hh h

theorem known_lt {c : Config} {s : St} {l : Nat} (hi : Inv c s) (h : Known s l) : l < s.nlinks := by
  refine Nat.lt_of_not_le fun hge => ?_
  have hf := (hi.link l).fresh hge
  rcases h with h | h
  · rw [hf] at h; cases h
  · have := ((hi.link l).closed h).1
    rw [hf] at this
    cases this

theorem known_connect {c : Config} {s : St} {t l : Nat} {ports : List PortInfo} {opens : Option PyErr} {d : Nat}
    (hi : Inv c s) (h : Known s l) : Known (s.connect c t ports opens d) l := by
  have base : ∀ k : Link, Known ({ s with nlinks := s.nlinks + 1, now := s.now + d }.setLink s.nlinks k) l := by
    intro k
    refine known_congr h ?_ List.prefix_rfl
    show (upd s.links s.nlinks k l).uart = _
    rw [upd_other (Nat.ne_of_lt (known_lt hi h))]
  unfold St.connect
  dsimp only
  split
  · rcases base { owner := t, transport := .opened } with hh | hh
    · exact .inl hh
    · exact .inr (List.mem_append_left _ hh)
  · exact known_resume (s := ((({ s with nlinks := s.nlinks + 1, now := s.now + d } : St).setLink s.nlinks
      { owner := t }).setTask t { s.tasks t with pc := .connecting, link := some s.nlinks, hist := [] }))
      (base { owner := t })
  · exact known_resume (s := ((({ s with nlinks := s.nlinks + 1, now := s.now + d } : St).setLink s.nlinks
      { owner := t }).setTask t { s.tasks t with pc := .connecting, link := some s.nlinks, hist := [] }))
      (base { owner := t })

theorem known_step {c : Config} {s : St} {l : Nat} (hi : Inv c s) (h : Known s l) (ev : Ev) :
    Known (step c s ev) l := by
  unfold step
  split
  · exact h
  · exact h
  · exact h
  · exact known_closeApi h
  · split
    · unfold St.begin
      split
      · exact known_closeApi h
      · split
        · exact known_connect hi h
        · exact h
      · exact known_connect hi h
      · exact known_connect hi h
      · exact h
    · exact h
  · dsimp only
    split
    · exact known_setLink h id
    · exact h
  · split
    · split
      · rcases h with h | h
        · exact .inl h
        · exact .inr (List.mem_append_left _ h)
      · exact h
    · exact h
  · split
    · split
      · unfold St.connected
        split
        · exact known_resume (known_setLink h fun _ => rfl)
        · next _ _ l' _ _ =>
          have := known_setLink (l' := l') (k := { s.links l' with uart := true, app := true }) h fun _ => rfl
          exact known_resume (s := { s.setLink _ _ with api := _ }) this
        · exact h
      · exact h
    · exact h
  · split
    · exact known_resume h
    · exact h
  · split
    · exact h
    · split
      · exact known_ended (fail_ended' _ _ _) h
      · exact h
  · split
    · exact h
    · split
      · exact known_ended (fail_ended' _ _ _) h
      · exact h
    · exact h
  · dsimp only
    split
    · exact known_setLink h id
    · exact h
  · split
    · unfold St.lost
      dsimp only
      have h' := fun l' => known_setLink (l' := l') (k := { s.links l' with transport := .closed }) h id
      split
      · split
        · rcases h' _ with hh | hh
          · exact .inl hh
          · exact .inr (List.mem_append_left _ hh)
        · rcases h' _ with hh | hh
          · exact .inl hh
          · exact .inr (List.mem_append_left _ hh)
      · exact h' _
    · exact h

theorem api_step {c : Config} {s : St} (ev : Ev) :
    (step c s ev).api = s.api ∨ ∃ l, (step c s ev).api = some l ∧ Known (step c s ev) l := by
  have res : ∀ (s : St) t a, (s.resume c t a).api = s.api := fun s t a => (resume_frame c s t a).2.2.1
  have fl : ∀ (s : St) t e, (s.fail t e).api = s.api := fun s t e => (ended_frame (fail_ended' s t e)).2.2.1
  have con : ∀ t ports opens d, (s.connect c t ports opens d).api = s.api := fun t ports opens d =>
    (connect_frame c s t ports opens d).2.2.1
  have cl : s.closeApi.api = s.api := by
    rcases closeApi_cases s with h | ⟨l', h⟩
    · rw [h]
    · rw [h]
      unfold St.closeLink
      dsimp only
      split <;> rfl
  unfold step
  split
  · exact .inl rfl
  · exact .inl rfl
  · exact .inl rfl
  · exact .inl cl
  · split
    · unfold St.begin
      split
      · exact .inl cl
      · split
        · exact .inl (con ..)
        · exact .inl rfl
      · exact .inl (con ..)
      · exact .inl (con ..)
      · exact .inl rfl
    · exact .inl rfl
  · dsimp only
    split
    · exact .inl rfl
    · exact .inl rfl
  · split
    · split
      · exact .inl rfl
      · exact .inl rfl
    · exact .inl rfl
  · split
    · split
      · unfold St.connected
        split
        · exact .inl (res ..)
        · next _ _ l' _ _ =>
          right
          refine ⟨l', res .., known_resume (s := { s.setLink _ _ with api := _ }) (.inl ?_)⟩
          show (upd s.links l' _ l').uart = true
          rw [upd_same]
        · exact .inl rfl
      · exact .inl rfl
    · exact .inl rfl
  · split
    · exact .inl (res ..)
    · exact .inl rfl
  · split
    · exact .inl rfl
    · split
      · exact .inl (fl ..)
      · exact .inl rfl
  · split
    · exact .inl rfl
    · split
      · exact .inl (fl ..)
      · exact .inl rfl
    · exact .inl rfl
  · dsimp only
    split
    · exact .inl rfl
    · exact .inl rfl
  · split
    · unfold St.lost
      dsimp only
      split
      · split
        · exact .inl rfl
        · exact .inl rfl
      · exact .inl rfl
    · exact .inl rfl

/-- What `_api` refers to was connected. -/
theorem api_known (c : Config) (evs : List Ev) (l : Nat) (h : (run c evs).api = some l) :
    Known (run c evs) l := by
  induction evs using list_induction generalizing l with
  | h0 => cases h
  | hs evs ev ih =>
    rw [run_snoc] at h ⊢
    rcases api_step (c := c) (s := run c evs) ev with h1 | ⟨l', h1, h2⟩
    · exact known_step (Conn.inv_run c evs) (ih l (h1 ▸ h)) ev
    · rw [h1] at h
      cases h
      exact h2

/-! ## Orderly executions -/

/-- A recursive form of `OrderlyRun`. -/
def OrderlyFrom (c : Config) (s : St) : List Ev → Prop
  | [] => True
  | ev :: evs => Orderly s ev ∧ OrderlyFrom c (step c s ev) evs

theorem orderly_from {c : Config} {evs : List Ev} (h : OrderlyFrom c {} evs) : OrderlyRun c evs := by
  intro a ev b hab
  subst hab
  have key : ∀ a (s : St), OrderlyFrom c s (a ++ ev :: b) → Orderly (a.foldl (step c) s) ev := by
    intro a
    induction a with
    | nil => exact fun s h => h.1
    | cons x a ih => exact fun s h => ih _ h.2
  exact key a {} h

theorem no_active {s : St} (h : ∀ t, t < s.ntasks → ∃ o, (s.tasks t).pc = .done o) (t : Nat) : ¬ Active s t := by
  intro ha
  obtain ⟨o, ho⟩ := h t ha.1
  exact ha.2.2 o ho

end Zcc.Conn
