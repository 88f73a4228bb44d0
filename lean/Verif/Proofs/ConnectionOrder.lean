import Verif.Proofs.ConnectionRun

/-!
# Ports that stay open; executions in which nothing interferes
-/

namespace Zcc.Conn

open Zcc Spec

/-! ## A port nobody can close -/

/-- The port is open, the `API` object does not know it, and the task that opened it has ended. -/
structure Leaked (l : Nat) (s : St) : Prop where
  lt : l < s.nlinks
  transport : (s.links l).transport = .opened
  uart : (s.links l).uart = false
  task : (s.links l).owner < s.ntasks
  done : ∃ o, (s.tasks (s.links l).owner).pc = .done o

theorem closeLink_other {s : St} {l l' : Nat} (h : (s.links l).uart = false) :
    (s.closeLink l').links l = s.links l := by
  by_cases he : l = l'
  · subst he
    unfold St.closeLink
    dsimp only
    rw [if_neg (by rw [h]; exact nofun)]
  · exact closeLink_links he

theorem ended_links {s s' : St} {t l : Nat} {hist : List Act} (he : Ended s t hist s')
    (h : (s.links l).uart = false) : s'.links l = s.links l := by
  have h1 : s.closeApi.links l = s.links l := by
    rcases closeApi_cases s with hh | ⟨l', hh⟩
    · rw [hh]
    · rw [hh]; exact closeLink_other h
  have h2 : (s.closeOwn t).links l = s.links l := by
    rcases closeOwn_cases s t with hh | ⟨l', hh⟩
    · rw [hh]
    · rw [hh]; exact closeLink_other h
  cases he with
  | next => rfl
  | returned => rfl
  | raised => rfl
  | found => exact h2
  | notFound => exact h2
  | again => exact h1

theorem resume_links {c : Config} {s : St} {t l : Nat} {a : Act} (h : (s.links l).uart = false) :
    (s.resume c t a).links l = s.links l := by
  rcases resume_ended c s t a with hh | hh
  · rw [hh]
  · exact ended_links hh h

theorem connect_links {c : Config} {s : St} {t l : Nat} {ports : List PortInfo} {opens : Option PyErr} {d : Nat}
    (hl : l ≠ s.nlinks) (h : (s.links l).uart = false) :
    (s.connect c t ports opens d).links l = s.links l := by
  have base : ∀ k : Link, ({ s with nlinks := s.nlinks + 1, now := s.now + d }.setLink s.nlinks k).links l =
      s.links l := fun k => upd_other hl
  have bad : ∀ e, ((({ s with nlinks := s.nlinks + 1, now := s.now + d }.setLink s.nlinks { owner := t }).setTask t
      { s.tasks t with pc := .connecting, link := some s.nlinks, hist := [] }).resume c t
        ⟨.connect, .error e⟩).links l = s.links l := fun e =>
    (resume_links (s := St.setTask (St.setLink _ _ _) _ _) (by
      show (St.links (St.setLink _ _ _) l).uart = false
      rw [base]; exact h)).trans (base _)
  unfold St.connect
  dsimp only
  split
  · exact base _
  · exact bad _
  · exact bad _

/-- A link the `API` object does not know changes only by its own events. -/
theorem unknown_step {c : Config} {s : St} {l : Nat} {ev : Ev} (hlt : l < s.nlinks)
    (hu : (s.links l).uart = false)
    (ho : ∀ u, (s.tasks (s.links l).owner).pc ≠ .settling u) (hi : Inv c s) (h1 : ev ≠ .made l)
    (h2 : ev ≠ .break l) (h3 : ev ≠ .lost l) : (step c s ev).links l = s.links l := by
  have hapi : s.closeApi.links l = s.links l := by
    rcases closeApi_cases s with hh | ⟨l', hh⟩
    · rw [hh]
    · rw [hh]; exact closeLink_other hu
  unfold step
  split
  · rfl
  · rfl
  · rfl
  · exact hapi
  · split
    · unfold St.begin
      split
      · exact hapi
      · split
        · exact connect_links (Nat.ne_of_lt hlt) hu
        · rfl
      · exact connect_links (Nat.ne_of_lt hlt) hu
      · exact connect_links (Nat.ne_of_lt hlt) hu
      · rfl
    · rfl
  · next l' =>
    dsimp only
    split
    · exact upd_other fun he => h1 (by rw [he])
    · rfl
  · split
    · split <;> rfl
    · rfl
  · next t =>
    split
    · next u hp =>
      split
      · have hne : ∀ l', (s.tasks t).link = some l' → l ≠ l' := by
          rintro l' hl' rfl
          have := ((hi.task t).1 l hl').2
          rw [this] at ho
          exact ho u hp
        unfold St.connected
        split
        · next l' hl' _ =>
          have hn := hne l' hl'
          rw [resume_links (s := s.setLink l' _) (by
            show (upd s.links l' _ l).uart = false
            rw [upd_other hn]; exact hu)]
          exact upd_other hn
        · next l' hl' _ =>
          have hn := hne l' hl'
          rw [resume_links (s := { s.setLink l' _ with api := some l' }) (by
            show (upd s.links l' _ l).uart = false
            rw [upd_other hn]; exact hu)]
          exact upd_other hn
        · rfl
      · rfl
    · rfl
  · split
    · exact resume_links hu
    · rfl
  · split
    · rfl
    · split
      · exact ended_links (fail_ended' _ _ _) hu
      · rfl
  · split
    · rfl
    · split
      · exact ended_links (fail_ended' _ _ _) hu
      · rfl
    · rfl
  · next l' =>
    dsimp only
    split
    · exact upd_other fun he => h2 (by rw [he])
    · rfl
  · next l' =>
    split
    · have : ∀ k, (s.setLink l' k).links l = s.links l := fun k => upd_other fun he => h3 (by rw [he])
      unfold St.lost
      dsimp only
      split
      · split
        · exact this _
        · exact this _
      · exact this _
    · rfl

theorem leaked_step {c : Config} {s : St} {l : Nat} {ev : Ev} (hi : Inv c s) (h : Leaked l s)
    (hev : ev ≠ .break l) : Leaked l (step c s ev) := by
  obtain ⟨h1, h2, h3, h4, o, h5⟩ := h
  have hs := step_step (c := c) (s := s) ev
  have hd := hs.done _ o h4 h5
  have key : ((step c s ev).links l).transport = .opened ∧ ((step c s ev).links l).uart = false := by
    by_cases hm : ev = .made l
    · subst hm
      show ((if _ then _ else _ : St).links l).transport = _ ∧ ((if _ then _ else _ : St).links l).uart = _
      split
      · simp only [St.setLink, upd_same]
        exact ⟨h2, h3⟩
      · exact ⟨h2, h3⟩
    · by_cases hl : ev = .lost l
      · subst hl
        have : step c s (.lost l) = s := if_neg (by rw [h2]; exact nofun)
        rw [this]
        exact ⟨h2, h3⟩
      · rw [unknown_step h1 h3 (fun u => by rw [h5]; exact nofun) hi hm hev hl]
        exact ⟨h2, h3⟩
  refine ⟨Nat.lt_of_lt_of_le h1 hs.nlinks, key.1, key.2, ?_, o, ?_⟩
  · rw [hs.owner l h1]
    exact Nat.lt_of_lt_of_le h4 hs.ntasks
  · rw [hs.owner l h1, hd]
    exact h5

theorem leaked_run {c : Config} {a : List Ev} {l : Nat} (h : Leaked l (run c a)) (b : List Ev)
    (hb : Ev.break l ∉ b) : Leaked l (run c (a ++ b)) := by
  induction b using list_induction with
  | h0 => rwa [List.append_nil]
  | hs b ev ih =>
    rw [← List.append_assoc, run_snoc]
    exact leaked_step (inv_run c _) (ih fun hh => hb (List.mem_append_left _ hh))
      fun he => hb (he ▸ List.mem_append_right _ (List.mem_singleton_self _))

/-! ## Executions in which nothing interferes -/

/-- Where the application's connections can be, by what the start-up or reconnect loop is doing. -/
def Tidy (s : St) (l : Nat) : Prop :=
  (∀ t, ¬ Active s t) ∧ s.api = some l ∧ (s.links l).uart = true ∨
  ∃ t, Active s t ∧ (s.tasks t).link = some l ∧
    (Opening s t ∨ (s.tasks t).pc = .running ∧ s.api = some l)

structure Order (s : St) : Prop where
  one : ∀ t t', Active s t → Active s t' → t = t'
  tidy : ∀ l, OfApp s l → Live s l → Tidy s l
  /-- while `startup` runs, `_api` is the connection it opened -/
  api : ∀ t, Active s t → (s.tasks t).pc = .running → s.api = (s.tasks t).link

theorem live_iff {s s' : St} {l : Nat} (h : s'.links l = s.links l) : Live s' l ↔ Live s l := by
  unfold Live
  rw [h]

theorem not_live_close {s : St} {l : Nat} (hu : (s.links l).uart = true) : ¬ Live (s.closeLink l) l := by
  unfold St.closeLink Live
  dsimp only
  rw [if_pos hu]
  simp only [St.note, St.setLink, upd_same]
  rintro (h | ⟨-, h⟩)
  · split at h
    · cases h
    · next hh => exact hh h
  · cases h

theorem live_close {s : St} {l l' : Nat} (h : Live (s.closeLink l) l') : Live s l' := by
  by_cases he : l' = l
  · subst he
    by_cases hu : (s.links l').uart = true
    · exact absurd h (not_live_close hu)
    · unfold St.closeLink at h
      dsimp only at h
      rwa [if_neg hu] at h
  · exact (live_iff (closeLink_links he)).mp h

theorem live_closeApi {s : St} {l : Nat} (h : Live s.closeApi l) : Live s l := by
  rcases closeApi_cases s with hh | ⟨l', hh⟩
  · rwa [hh] at h
  · rw [hh] at h
    exact live_close h

/-- A live connection was not closed. -/
theorem live_open {s : St} {l : Nat} (hi : LinkInv s l) (h : Live s l) : Note.closed l ∉ s.log := by
  intro hc
  obtain ⟨-, h1, -, h2⟩ := hi.closed hc
  rcases h with h | ⟨-, h⟩
  · exact h2 h
  · rw [h1] at h
    cases h

/-- The connections the application knows are its own. -/
def AppLink (s : St) : Prop := ∀ l, (s.links l).app = true → OfApp s l

/-- Nothing that concerns the application changes, except that connections may die. -/
theorem order_same {s s' : St} (h : Order s) (hA : ∀ t, Active s' t ↔ Active s t)
    (hL : ∀ t, Active s t → (s'.tasks t).link = (s.tasks t).link ∧ (Opening s t → Opening s' t) ∧
      ((s'.tasks t).pc = .running ↔ (s.tasks t).pc = .running))
    (hapi : s'.api = s.api)
    (hl : ∀ l, OfApp s' l → Live s' l → OfApp s l ∧ Live s l ∧
      ((s.links l).uart = true → (s'.links l).uart = true)) : Order s' := by
  refine ⟨fun t t' h1 h2 => h.one t t' ((hA t).mp h1) ((hA t').mp h2), fun l h1 h2 => ?_, fun t h1 h2 => ?_⟩
  · obtain ⟨k1, k2, k3⟩ := hl l h1 h2
    rcases h.tidy l k1 k2 with ⟨m1, m2, m3⟩ | ⟨t, m1, m2, m3⟩
    · exact .inl ⟨fun t ht => m1 t ((hA t).mp ht), hapi.trans m2, k3 m3⟩
    · obtain ⟨n1, n2, n3⟩ := hL t m1
      refine .inr ⟨t, (hA t).mpr m1, n1.trans m2, m3.imp n2 fun m => ⟨n3.mpr m.1, hapi.trans m.2⟩⟩
  · have h1 := (hA t).mp h1
    obtain ⟨n1, n2, n3⟩ := hL t h1
    rw [hapi, n1]
    exact h.api t h1 (n3.mp h2)

/-- The same tasks. -/
theorem order_links {s s' : St} (h : Order s) (hn : s'.ntasks = s.ntasks) (ht : s'.tasks = s.tasks)
    (hapi : s'.api = s.api) (hnl : s'.nlinks = s.nlinks)
    (hl : ∀ l, (s'.links l).owner = (s.links l).owner ∧ (Live s' l → Live s l) ∧
      (Live s' l → (s.links l).uart = true → (s'.links l).uart = true)) : Order s' := by
  refine order_same h (fun t => ?_) (fun t _ => ?_) hapi fun l h1 h2 => ?_
  · unfold Active; rw [hn, ht]
  · unfold Opening; rw [ht]; exact ⟨rfl, id, Iff.rfl⟩
  · refine ⟨?_, (hl l).2.1 h2, (hl l).2.2 h2⟩
    unfold OfApp at h1 ⊢
    rwa [hnl, ht, (hl l).1] at h1

/-- What a probe does concerns no other task and no connection of the application. -/
theorem order_probe {s s' : St} {t : Nat} (h : Order s) (hk : (s.tasks t).kind = .probe)
    (hk' : (s'.tasks t).kind = .probe) (hn : s'.ntasks = s.ntasks)
    (ht : ∀ t', t' ≠ t → s'.tasks t' = s.tasks t') (hapi : s'.api = s.api)
    (hl : ∀ l, l < s'.nlinks → (s'.links l).owner ≠ t → l < s.nlinks ∧ s'.links l = s.links l) : Order s' := by
  have hA : ∀ t', Active s' t' ↔ Active s t' := by
    intro t'
    by_cases he : t' = t
    · subst he
      exact ⟨fun h => absurd hk' h.2.1, fun h => absurd hk h.2.1⟩
    · unfold Active; rw [hn, ht t' he]
  refine order_same h hA (fun t' h1 => ?_) hapi fun l h1 h2 => ?_
  · have he : t' ≠ t := fun he => h1.2.1 (he ▸ hk)
    unfold Opening
    rw [ht t' he]
    exact ⟨rfl, id, Iff.rfl⟩
  · have he : (s'.links l).owner ≠ t := fun he => h1.2 (he ▸ hk')
    obtain ⟨k1, k2⟩ := hl l h1.1 he
    refine ⟨⟨k1, ?_⟩, (live_iff k2).mp h2, fun hu => by rw [k2]; exact hu⟩
    rw [← k2, ← ht _ he]
    exact h1.2

theorem ended_probe {c : Config} {s s' : St} {t : Nat} {hist : List Act} (hi : Inv c s) (h : Order s)
    (hk : (s.tasks t).kind = .probe) (he : Ended s t hist s') : Order s' := by
  obtain ⟨h1, h2, h3, h4, h5, pc, h6⟩ := ended_frame he
  refine order_probe h hk (by rw [h6]; exact hk) h1 h5 h3 fun l hl ho => ⟨h2 ▸ hl, ?_⟩
  rw [h4 l] at ho
  have hown : (s.closeOwn t).links l = s.links l := by
    rcases closeOwn_eq s t with hh | ⟨l', hl', hh⟩
    · rw [hh]
    · rw [hh]
      refine closeLink_links fun hll => ho ?_
      rw [hll]
      exact ((hi.task t).1 l' hl').2
  cases he with
  | next => rfl
  | returned => rfl
  | raised => rfl
  | found => exact hown
  | notFound => exact hown
  | again _ h' => rw [hk] at h'; cases h'

/-- The only task of the application ends an operation, after `connect` returned. -/
theorem ended_order {s s' : St} {t : Nat} {hist : List Act} (ht : t < s.ntasks)
    (hk : (s.tasks t).kind ≠ .probe) (hone : ∀ t', Active s t' → t' = t)
    (hl : ∀ l, OfApp s l → Live s l → (s.tasks t).link = some l ∧ s.api = some l ∧ (s.links l).uart = true)
    (he : Ended s t hist s') (hapi : (s'.tasks t).pc = .running → s.api = (s.tasks t).link) : Order s' := by
  obtain ⟨h1, h2, h3, h4, h5, pc, h6⟩ := ended_frame he
  have hact : ∀ t', Active s' t' → t' = t := by
    intro t' ha
    by_cases hne : t' = t
    · exact hne
    · refine hone t' ?_
      unfold Active at ha ⊢
      rwa [h1, h5 t' hne] at ha
  have hlive : ∀ l, OfApp s' l → Live s' l → OfApp s l ∧ Live s l := by
    intro l k1 k2
    constructor
    · obtain ⟨k1, k3⟩ := k1
      refine ⟨h2 ▸ k1, ?_⟩
      rw [h4 l] at k3
      by_cases hne : (s.links l).owner = t
      · rw [hne]; exact hk
      · rwa [h5 _ hne] at k3
    · cases he with
      | next => exact k2
      | returned => exact k2
      | raised => exact k2
      | found h' => exact absurd h' hk
      | notFound _ h' => exact absurd h' hk
      | again => exact live_closeApi k2
  have ended : ∀ o, (s'.tasks t).pc = .done o → ∀ t', ¬ Active s' t' := by
    intro o ho t' ha
    have := hact t' ha
    subst this
    exact ha.2.2 o ho
  refine ⟨fun t1 t2 k1 k2 => (hact t1 k1).trans (hact t2 k2).symm, fun l k1 k2 => ?_, fun t' k1 k2 => ?_⟩
  · obtain ⟨m1, m2⟩ := hlive l k1 k2
    obtain ⟨n1, n2, n3⟩ := hl l m1 m2
    cases he with
    | next =>
      have hself : ∀ k, (s.setTask t k).tasks t = k := fun k => upd_same _ _ _
      refine .inr ⟨t, ⟨ht, ?_, ?_⟩, ?_, .inr ⟨?_, n2⟩⟩
      all_goals rw [hself]
      · exact hk
      · exact nofun
      · exact n1
    | returned =>
      exact .inl ⟨ended _ (by show (upd s.tasks t _ t).pc = _; rw [upd_same]), n2, n3⟩
    | raised =>
      exact .inl ⟨ended _ (by show (upd s.tasks t _ t).pc = _; rw [upd_same]), n2, n3⟩
    | found h' => exact absurd h' hk
    | notFound _ h' => exact absurd h' hk
    | again =>
      exfalso
      have k2 : Live s.closeApi l := k2
      unfold St.closeApi at k2
      rw [n2] at k2
      exact not_live_close n3 k2
  · have := hact t' k1
    subst this
    rw [h3, hapi k2, h6]

theorem fail_running (s : St) (t : Nat) (e : PyErr) : ((s.fail t e).tasks t).pc ≠ .running := by
  have := fail_ended' s t e
  unfold St.fail
  have hp : ∀ (s : St) pc, ((s.setPc t pc).tasks t).pc = pc := by
    intro s pc
    show (upd s.tasks t _ t).pc = _
    rw [upd_same]
  split
  · rw [hp]; exact nofun
  · split
    · rw [hp]; exact nofun
    · rw [hp]; exact nofun
  · rw [hp]; exact nofun

theorem resume_error {c : Config} {s : St} {t : Nat} {e : PyErr} (h : (s.tasks t).hist = []) :
    s.resume c t ⟨.connect, .error e⟩ = (s.setTask t { s.tasks t with
      pc := .running, hist := (s.tasks t).hist ++ [⟨.connect, .error e⟩] }).fail t e := by
  unfold St.resume
  dsimp only
  rw [h, feed_connect]

/-- While a loop is not past opening its port, the application has no other connection. -/
theorem none_live {s : St} {t : Nat} (h : Order s) (ha : Active s t) (h1 : ¬ Opening s t)
    (h2 : (s.tasks t).pc ≠ .running) : ∀ l, OfApp s l → ¬ Live s l := by
  intro l k1 k2
  rcases h.tidy l k1 k2 with ⟨m1, -⟩ | ⟨t', m1, -, m3⟩
  · exact m1 t ha
  · have := h.one t t' ha m1
    subst this
    rcases m3 with m3 | m3
    · exact h1 m3
    · exact h2 m3.1

theorem connect_order {c : Config} {s : St} {t : Nat} {ports : List PortInfo} {opens : Option PyErr} {d : Nat}
    (h : Order s) (ha : Active s t) (h1 : ¬ Opening s t)
    (h2 : (s.tasks t).pc ≠ .running) : Order (s.connect c t ports opens d) := by
  have hnone := none_live h ha h1 h2
  have hnew : ∀ (k : Link) (k' : Task), k.owner = t → k'.kind = (s.tasks t).kind → ∀ l, l ≠ s.nlinks →
      OfApp (({ s with nlinks := s.nlinks + 1, now := s.now + d }.setLink s.nlinks k).setTask t k') l →
      ¬ Live (({ s with nlinks := s.nlinks + 1, now := s.now + d }.setLink s.nlinks k).setTask t k') l := by
    intro k k' hk hkk l hl hof hlive
    have heq : (({ s with nlinks := s.nlinks + 1, now := s.now + d }.setLink s.nlinks k).setTask t k').links l =
        s.links l := upd_other hl
    refine hnone l ⟨?_, ?_⟩ ((live_iff heq).mp hlive)
    · have : l < s.nlinks + 1 := hof.1
      omega
    · have := hof.2
      rw [heq] at this
      by_cases hne : (s.links l).owner = t
      · rw [hne]; exact ha.2.1
      · have heq2 : (({ s with nlinks := s.nlinks + 1, now := s.now + d }.setLink s.nlinks k).setTask t k').tasks
            (s.links l).owner = s.tasks (s.links l).owner := upd_other hne
        rwa [heq2] at this
  have hact : ∀ (k : Link) (k' : Task) t', Active (({ s with nlinks := s.nlinks + 1, now := s.now + d }.setLink
      s.nlinks k).setTask t k') t' → t' = t := by
    intro k k' t' ha'
    by_cases hne : t' = t
    · exact hne
    · refine h.one t' t ⟨ha'.1, ?_⟩ ha
      have heq2 : (({ s with nlinks := s.nlinks + 1, now := s.now + d }.setLink s.nlinks k).setTask t k').tasks t' =
        s.tasks t' := upd_other hne
      have := ha'.2
      rwa [heq2] at this
  have bad : ∀ e, Order ((({ s with nlinks := s.nlinks + 1, now := s.now + d }.setLink s.nlinks { owner := t }).setTask t
      { s.tasks t with pc := .connecting, link := some s.nlinks, hist := [] }).resume c t ⟨.connect, .error e⟩) := by
    intro e
    have hself : (({ s with nlinks := s.nlinks + 1, now := s.now + d }.setLink s.nlinks { owner := t }).setTask t
      { s.tasks t with pc := .connecting, link := some s.nlinks, hist := [] }).tasks t =
      { s.tasks t with pc := .connecting, link := some s.nlinks, hist := [] } := upd_same _ _ _
    have hr := resume_error (c := c) (e := e) (t := t) (s := (({ s with nlinks := s.nlinks + 1, now := s.now + d }.setLink
      s.nlinks { owner := t }).setTask t
      { s.tasks t with pc := .connecting, link := some s.nlinks, hist := [] })) (by rw [hself])
    rw [hr]
    refine ended_order (t := t) (s := (({ s with nlinks := s.nlinks + 1, now := s.now + d }.setLink
      s.nlinks { owner := t }).setTask t
      { s.tasks t with pc := .connecting, link := some s.nlinks, hist := [] })) ha.1 ?_ (hact _ _) ?_
      (fail_ended _ t e _ _) ?_
    · rw [hself]; exact ha.2.1
    · intro l hof hlive
      by_cases hl : l = s.nlinks
      · subst hl
        exfalso
        rcases hlive with hh | hh
        · have hh : (upd s.links s.nlinks _ s.nlinks).transport = _ := hh
          rw [upd_same] at hh
          cases hh
        · have hh : (upd s.links s.nlinks _ s.nlinks).transport = _ := hh.1
          rw [upd_same] at hh
          cases hh
      · exact absurd hlive (hnew { owner := t } { s.tasks t with pc := .connecting, link := some s.nlinks, hist := [] }
          rfl rfl l hl hof)
    · exact fun hh => absurd hh (fail_running _ _ _)
  unfold St.connect
  dsimp only
  split
  · have hself : ∀ k k' n, ((({ s with nlinks := s.nlinks + 1, now := s.now + d }.setLink s.nlinks k).setTask t
        k').note n).tasks t = k' := fun k k' _ => upd_same _ _ _
    refine ⟨fun t1 t2 k1 k2 => (hact _ _ t1 k1).trans (hact _ _ t2 k2).symm, fun l k1 k2 => ?_, fun t' k1 k2 => ?_⟩
    · by_cases hl : l = s.nlinks
      · subst hl
        refine .inr ⟨t, ⟨ha.1, ?_, ?_⟩, ?_, .inl (.inl ?_)⟩
        all_goals rw [hself]
        · exact ha.2.1
        · exact nofun
      · exact absurd k2 (hnew { owner := t, transport := .opened } { s.tasks t with pc := .connecting, link := some s.nlinks, hist := [] }
          rfl rfl l hl k1)
    · have := hact _ _ t' k1
      subst this
      rw [hself] at k2
      cases k2
  · exact bad _
  · exact bad _

/-! ### Which links the application knows -/

theorem closeLink_app (s : St) (l l' : Nat) : ((s.closeLink l).links l').app = (s.links l').app := by
  by_cases h : l' = l
  · subst h
    unfold St.closeLink
    dsimp only
    split
    · simp only [St.note, St.setLink, upd_same]
    · rfl
  · rw [closeLink_links h]

theorem closeApi_app (s : St) (l : Nat) : (s.closeApi.links l).app = (s.links l).app := by
  rcases closeApi_cases s with h | ⟨l', h⟩
  · rw [h]
  · rw [h]; exact closeLink_app s l' l

theorem closeOwn_app (s : St) (t l : Nat) : ((s.closeOwn t).links l).app = (s.links l).app := by
  rcases closeOwn_cases s t with h | ⟨l', h⟩
  · rw [h]
  · rw [h]; exact closeLink_app s l' l

theorem ended_app {s s' : St} {t : Nat} {hist : List Act} (h : Ended s t hist s') (l : Nat) :
    (s'.links l).app = (s.links l).app := by
  cases h with
  | next => rfl
  | returned => rfl
  | raised => rfl
  | found => exact closeOwn_app s t l
  | notFound => exact closeOwn_app s t l
  | again => exact closeApi_app s l

theorem resume_app (c : Config) (s : St) (t : Nat) (a : Act) (l : Nat) :
    ((s.resume c t a).links l).app = (s.links l).app := by
  rcases resume_ended c s t a with h | h
  · rw [h]
  · exact ended_app h l

theorem connect_app {c : Config} {s : St} {t : Nat} {ports : List PortInfo} {opens : Option PyErr} {d l : Nat}
    (h : ((s.connect c t ports opens d).links l).app = true) : (s.links l).app = true := by
  have base : ∀ k : Link, k.app = false →
      (({ s with nlinks := s.nlinks + 1, now := s.now + d }.setLink s.nlinks k).links l).app = true →
      (s.links l).app = true := by
    intro k hk hh
    have hh : (upd s.links s.nlinks k l).app = true := hh
    by_cases hl : l = s.nlinks
    · subst hl
      rw [upd_same, hk] at hh
      cases hh
    · rwa [upd_other hl] at hh
  unfold St.connect at h
  dsimp only at h
  split at h
  · exact base _ rfl h
  · rw [resume_app] at h
    exact base _ rfl h
  · rw [resume_app] at h
    exact base _ rfl h

/-- The application gets to know a link only when `connect` returns in one of its tasks. -/
theorem app_step {c : Config} {s : St} {ev : Ev} {l : Nat} (h : ((step c s ev).links l).app = true) :
    (s.links l).app = true ∨ ∃ t, (s.tasks t).link = some l ∧ (s.tasks t).kind ≠ .probe := by
  have set : ∀ l' k, k.app = (s.links l').app → ((s.setLink l' k).links l).app = true → (s.links l).app = true := by
    intro l' k hk hh
    have hh : (upd s.links l' k l).app = true := hh
    by_cases hl : l = l'
    · subst hl
      rwa [upd_same, hk] at hh
    · rwa [upd_other hl] at hh
  unfold step at h
  split at h
  · exact .inl h
  · exact .inl h
  · exact .inl h
  · exact .inl (by rwa [closeApi_app] at h)
  · left
    split at h
    · unfold St.begin at h
      split at h
      · rw [← closeApi_app]; exact h
      · split at h
        · exact connect_app h
        · exact h
      · exact connect_app h
      · exact connect_app h
      · exact h
    · exact h
  · left
    dsimp only at h
    split at h
    · exact set _ _ (by rfl) h
    · exact h
  · left
    split at h
    · split at h
      · exact h
      · exact h
    · exact h
  · next t =>
    split at h
    · split at h
      · unfold St.connected at h
        split at h
        · rw [resume_app] at h
          exact .inl (set _ _ (by rfl) h)
        · next l' hl' hk =>
          rw [resume_app] at h
          have h : (upd s.links l' _ l).app = true := h
          by_cases hl : l = l'
          · subst hl
            exact .inr ⟨t, hl', hk⟩
          · rw [upd_other hl] at h
            exact .inl h
        · exact .inl h
      · exact .inl h
    · exact .inl h
  · left
    split at h
    · rwa [resume_app] at h
    · exact h
  · left
    split at h
    · exact h
    · split at h
      · rwa [ended_app (fail_ended' _ _ _)] at h
      · exact h
  · left
    split at h
    · exact h
    · split at h
      · rwa [ended_app (fail_ended' _ _ _)] at h
      · exact h
    · exact h
  · left
    dsimp only at h
    split at h
    · exact set _ _ (by rfl) h
    · exact h
  · next l' =>
    left
    split at h
    · unfold St.lost at h
      dsimp only at h
      split at h
      · split at h
        · exact set l' { s.links l' with transport := .closed } rfl h
        · exact set l' { s.links l' with transport := .closed } rfl h
      · exact set l' { s.links l' with transport := .closed } rfl h
    · exact h

theorem ofApp_step {c : Config} {s : St} {ev : Ev} {l : Nat} (hown : Own s) (h : OfApp s l) :
    OfApp (step c s ev) l := by
  have hs := step_step (c := c) (s := s) ev
  refine ⟨Nat.lt_of_lt_of_le h.1 hs.nlinks, ?_⟩
  rw [hs.owner l h.1, (hs.kind _ (hown l h.1).1).1]
  exact h.2

theorem appLink_run (c : Config) (evs : List Ev) : AppLink (run c evs) := by
  induction evs using list_induction with
  | h0 => exact fun l h => by cases h
  | hs evs ev ih =>
    rw [run_snoc]
    intro l h
    refine ofApp_step (own_run c evs) ?_
    rcases app_step h with h | ⟨t, h1, h2⟩
    · exact ih l h
    · obtain ⟨h3, h4⟩ := ((inv_run c evs).task t).1 l h1
      exact ⟨h3, by rw [h4]; exact h2⟩

/-! ### The invariant -/

theorem order_spawn {s : St} (hown : Own s) (h1 : ∀ t, ¬ Active s t) (h2 : ∀ l, OfApp s l → ¬ Live s l)
    (k : Kind) : Order (s.spawn k) := by
  have hact : ∀ t, Active (s.spawn k) t → t = s.ntasks := by
    intro t ha
    by_cases he : t = s.ntasks
    · exact he
    · have heq : (s.spawn k).tasks t = s.tasks t := upd_other he
      refine absurd ⟨?_, ?_⟩ (h1 t)
      · have : t < s.ntasks + 1 := ha.1
        omega
      · have := ha.2
        rwa [heq] at this
  refine ⟨fun t t' k1 k2 => (hact t k1).trans (hact t' k2).symm, fun l k1 k2 => absurd k2 (h2 l ⟨k1.1, ?_⟩),
    fun t k1 k2 => ?_⟩
  · have heq : (s.spawn k).tasks (s.links l).owner = s.tasks (s.links l).owner :=
      upd_other (Nat.ne_of_lt (hown l k1.1).1)
    have := k1.2
    rwa [show ((s.spawn k).links l).owner = (s.links l).owner from rfl, heq] at this
  · have := hact t k1
    subst this
    have heq : (s.spawn k).tasks s.ntasks = { kind := k, deadline := s.now + 2000 } := upd_same _ _ _
    rw [heq] at k2
    cases k2

theorem order_spawnProbe {s : St} (hown : Own s) (h : Order s) : Order (s.spawn .probe) := by
  have heq : ∀ t, t ≠ s.ntasks → (s.spawn .probe).tasks t = s.tasks t := fun t he => upd_other he
  have hA : ∀ t, Active (s.spawn .probe) t ↔ Active s t := by
    intro t
    by_cases he : t = s.ntasks
    · subst he
      constructor
      · intro ha
        refine absurd ?_ ha.2.1
        show (upd s.tasks s.ntasks _ s.ntasks).kind = _
        rw [upd_same]
      · exact fun ha => absurd ha.1 (Nat.lt_irrefl _)
    · unfold Active
      rw [heq t he]
      constructor
      · rintro ⟨k1, k2⟩
        have k1 : t < s.ntasks + 1 := k1
        exact ⟨by omega, k2⟩
      · rintro ⟨k1, k2⟩
        exact ⟨Nat.lt_succ_of_lt k1, k2⟩
  refine order_same h hA (fun t ha => ?_) rfl fun l k1 k2 => ⟨⟨k1.1, ?_⟩, k2, id⟩
  · unfold Opening
    rw [heq t (Nat.ne_of_lt ha.1)]
    exact ⟨rfl, id, Iff.rfl⟩
  · have := k1.2
    rwa [show ((s.spawn .probe).links l).owner = (s.links l).owner from rfl,
      heq _ (Nat.ne_of_lt (hown l k1.1).1)] at this

theorem order_step {c : Config} {s : St} {ev : Ev} (hi : Inv c s) (hown : Own s) (happ : AppLink s)
    (h : Order s) (ho : Orderly s ev) : Order (step c s ev) := by
  have probeConnect : ∀ t ports opens d, (s.tasks t).kind = .probe → Order (s.connect c t ports opens d) := by
    intro t ports opens d hk
    obtain ⟨h1, h2, h3, h4, h5, h6, pc, hist, h7⟩ := connect_frame c s t ports opens d
    refine order_probe h hk (by rw [h7]; exact hk) h1 h6 h3 fun l hl hne => ?_
    have hlt : l ≠ s.nlinks := fun he => hne (he ▸ h5)
    rw [h2] at hl
    refine ⟨by omega, ?_⟩
    -- other links stay as they are
    rw [h4 l hlt] at hne
    have base : ∀ k : Link, ({ s with nlinks := s.nlinks + 1, now := s.now + d }.setLink s.nlinks k).links l =
        s.links l := fun k => upd_other hlt
    have bad : ∀ e, ((({ s with nlinks := s.nlinks + 1, now := s.now + d }.setLink s.nlinks { owner := t }).setTask t
        { s.tasks t with pc := .connecting, link := some s.nlinks, hist := [] }).resume c t
          ⟨.connect, .error e⟩).links l = s.links l := by
      intro e
      rcases resume_ended c (({ s with nlinks := s.nlinks + 1, now := s.now + d }.setLink s.nlinks { owner := t }).setTask t
        { s.tasks t with pc := .connecting, link := some s.nlinks, hist := [] }) t ⟨.connect, .error e⟩ with hh | hh
      · rw [hh]; exact base _
      · have hself : (({ s with nlinks := s.nlinks + 1, now := s.now + d }.setLink s.nlinks { owner := t }).setTask t
          { s.tasks t with pc := .connecting, link := some s.nlinks, hist := [] }).tasks t =
          { s.tasks t with pc := .connecting, link := some s.nlinks, hist := [] } := upd_same _ _ _
        have own : ((({ s with nlinks := s.nlinks + 1, now := s.now + d }.setLink s.nlinks { owner := t }).setTask t
            { s.tasks t with pc := .connecting, link := some s.nlinks, hist := [] }).closeOwn t).links l = s.links l := by
          unfold St.closeOwn
          rw [hself]
          exact (closeLink_links hlt).trans (base _)
        generalize hg : St.resume c _ t _ = s2 at hh
        cases hh with
        | next => exact base _
        | returned => exact base _
        | raised => exact base _
        | found => exact own
        | notFound => exact own
        | again _ h' => rw [hself, hk] at h'; cases h'
    unfold St.connect
    dsimp only
    split
    · exact base _
    · exact bad _
    · exact bad _
  unfold step
  split
  · exact order_links h rfl rfl rfl rfl fun l => ⟨rfl, id, fun _ => id⟩
  · exact order_spawn hown ho.1 ho.2 _
  · exact order_spawnProbe hown h
  · -- shutdown
    obtain ⟨h1, h2, h3, h4⟩ := closeApi_frame s
    have hno : ∀ l, OfApp s.closeApi l → ¬ Live s.closeApi l := by
      intro l k1 k2
      have k1 : OfApp s l := by
        unfold OfApp at k1 ⊢
        rwa [h2, closeApi_tasks, h4] at k1
      rcases h.tidy l k1 (live_closeApi k2) with ⟨-, m2, m3⟩ | ⟨t, m1, -⟩
      · unfold St.closeApi at k2
        rw [m2] at k2
        exact not_live_close m3 k2
      · exact ho t m1
    have hna : ∀ t, ¬ Active s.closeApi t := by
      intro t ha
      unfold Active at ha
      rw [h1, closeApi_tasks] at ha
      exact ho t ha
    exact ⟨fun t t' k1 => absurd k1 (hna t), fun l k1 k2 => absurd k2 (hno l k1), fun t k1 => absurd k1 (hna t)⟩
  · next t ports opens d =>
    split
    · next ht =>
      unfold St.begin
      split
      · next hk hp =>
        have ha : Active s t := ⟨ht, by rw [hk]; exact nofun, fun o => by rw [hp]; exact nofun⟩
        have hnone := none_live h ha (fun ho => by
          rcases ho with ho | ⟨u, ho⟩
          · rw [hp] at ho; cases ho
          · rw [hp] at ho; cases ho) (by rw [hp]; exact nofun)
        exact ended_order (s := s) (hist := (s.tasks t).hist) ht ha.2.1 (fun t' ha' => h.one t' t ha' ha)
          (fun l k1 k2 => absurd k2 (hnone l k1))
          (by
            rw [setPc_eq _ _ (closeApi_cases s)]
            exact .again .timeoutError hk nofun)
          (fun hh => by
            rw [setPc_eq _ _ (closeApi_cases s)] at hh
            have hh : (upd s.closeApi.tasks t _ t).pc = _ := hh
            rw [upd_same] at hh
            cases hh)
      · next hk hp =>
        split
        · refine connect_order h ⟨ht, by rw [hk]; exact nofun, fun o => by rw [hp]; exact nofun⟩ ?_ ?_
          · rintro (ho | ⟨u, ho⟩)
            · rw [hp] at ho; cases ho
            · rw [hp] at ho; cases ho
          · rw [hp]; exact nofun
        · exact h
      · next hk hp =>
        refine connect_order h ⟨ht, by rw [hk]; exact nofun, fun o => by rw [hp]; exact nofun⟩ ?_ ?_
        · rintro (ho | ⟨u, ho⟩)
          · rw [hp] at ho; cases ho
          · rw [hp] at ho; cases ho
        · rw [hp]; exact nofun
      · next hk hp => exact probeConnect t ports opens d hk
      · exact h
    · exact h
  · next l =>
    dsimp only
    split
    · next hm =>
      refine order_links h rfl rfl rfl rfl fun l' => ⟨setLink_owner (by rfl) l', ?_, ?_⟩
      · by_cases he : l' = l
        · subst he
          exact fun _ => .inl hm.1
        · exact (live_iff (upd_other he)).mp
      · intro _ hu
        by_cases he : l' = l
        · subst he
          show (upd s.links l' _ l').uart = true
          rw [upd_same]
          exact hu
        · show (upd s.links l _ l').uart = true
          rw [upd_other he]
          exact hu
    · exact h
  · next t =>
    split
    · next l hl hp =>
      split
      · -- the task goes from `connecting` to `settling`
        have heq : ∀ t', t' ≠ t → ((s.setPc t (.settling (s.now + 1000))).note (.wakeup l)).tasks t' = s.tasks t' :=
          fun t' he => upd_other he
        have hself : ((s.setPc t (.settling (s.now + 1000))).note (.wakeup l)).tasks t =
          { s.tasks t with pc := .settling (s.now + 1000) } := upd_same _ _ _
        refine order_same h (fun t' => ?_) (fun t' ha => ?_) rfl fun l' k1 k2 => ⟨⟨k1.1, ?_⟩, k2, id⟩
        · by_cases he : t' = t
          · subst he
            unfold Active
            rw [hself, hp]
            exact ⟨fun ⟨k1, k2, k3⟩ => ⟨k1, k2, nofun⟩, fun ⟨k1, k2, k3⟩ => ⟨k1, k2, nofun⟩⟩
          · unfold Active
            rw [heq t' he]
            exact Iff.rfl
        · by_cases he : t' = t
          · subst he
            unfold Opening
            rw [hself]
            refine ⟨rfl, fun _ => .inr ⟨_, rfl⟩, ?_⟩
            rw [hp]
            exact ⟨nofun, nofun⟩
          · unfold Opening
            rw [heq t' he]
            exact ⟨rfl, id, Iff.rfl⟩
        · have := k1.2
          by_cases he : (s.links l').owner = t
          · rw [show (((s.setPc t (.settling (s.now + 1000))).note (.wakeup l)).links l').owner =
              (s.links l').owner from rfl, he, hself] at this
            rw [he]
            exact this
          · rwa [show (((s.setPc t (.settling (s.now + 1000))).note (.wakeup l)).links l').owner =
              (s.links l').owner from rfl, heq _ he] at this
      · exact h
    · exact h
  · next t =>
    split
    · next u hp =>
      split
      · have ht : t < s.ntasks := running_lt hi (by rw [hp]; exact nofun)
        obtain ⟨hlk, h2⟩ := hi.task t
        rw [hp] at h2
        obtain ⟨l, hl, h3, h4, h5, h6, h7⟩ := h2
        obtain ⟨hlt, hlo⟩ := hlk l hl
        unfold St.connected
        rw [hl]
        split
        · next l' hkl hk =>
          cases hkl
          -- a probe
          have hb : Order (s.setLink l { s.links l with uart := true }) := by
            refine order_probe (t := t) h hk hk rfl (fun _ _ => rfl) rfl fun l' hl' ho' => ⟨hl', ?_⟩
            refine upd_other fun he => ho' ?_
            rw [he, setLink_owner (by rfl)]
            exact hlo
          rcases resume_ended c (s.setLink l { s.links l with uart := true }) t ⟨.connect, .ok ()⟩ with hh | hh
          · rw [hh]; exact hb
          · obtain ⟨k1, k2, k3, k4, k5, pc, k6⟩ := ended_frame hh
            refine order_probe (t := t) hb hk (by rw [k6]; exact hk) k1 k5 k3 fun l' hl' ho' => ⟨k2 ▸ hl', ?_⟩
            rw [k4 l'] at ho'
            have hown' : ((s.setLink l { s.links l with uart := true }).closeOwn t).links l' =
                (s.setLink l { s.links l with uart := true }).links l' := by
              unfold St.closeOwn
              have : ((s.setLink l { s.links l with uart := true }).tasks t).link = some l := hl
              rw [this]
              refine closeLink_links fun he => ho' ?_
              rw [he, setLink_owner (by rfl)]
              exact hlo
            generalize hg : St.resume c _ t _ = s2 at hh
            cases hh with
            | next => rfl
            | returned => rfl
            | raised => rfl
            | found => exact hown'
            | notFound => exact hown'
            | again _ h' =>
              have h' : (s.tasks t).kind = .reconnect := h'
              rw [hk] at h'; cases h'
        · next l' hkl hk =>
          cases hkl
          have hk : (s.tasks t).kind ≠ .probe := hk
          have ha : Active s t := ⟨ht, hk, fun o => by rw [hp]; exact nofun⟩
          rcases resume_ended c { s.setLink l { s.links l with uart := true, app := true } with api := some l } t
            ⟨.connect, .ok ()⟩ with hh | hh
          · exfalso
            -- `connect` is what the task was doing
            have hne := feed_connected c (s.tasks t).kind
            have hpc : (St.tasks (St.resume c { s.setLink l { s.links l with uart := true, app := true } with
                api := some l } t ⟨.connect, .ok ()⟩) t).pc = .settling u := by
              rw [hh]; exact hp
            unfold St.resume at hpc
            dsimp only at hpc
            have hf : (program c ({ s.setLink l { s.links l with uart := true, app := true } with
                api := some l }.tasks t).kind).feed (({ s.setLink l { s.links l with uart := true, app := true } with
                api := some l }.tasks t).hist ++ [⟨.connect, .ok ()⟩]) ≠ none := by
              show (program c (s.tasks t).kind).feed ((s.tasks t).hist ++ _) ≠ none
              rw [h6]; exact hne
            have hlast : ∀ (s0 : St) pc, ((s0.setPc t pc).tasks t).pc = pc := by
              intro s0 pc
              show (upd s0.tasks t _ t).pc = _
              rw [upd_same]
            split at hpc
            · next hf' => exact hf hf'
            · have hpc : (upd s.tasks t _ t).pc = _ := hpc
              rw [upd_same] at hpc
              cases hpc
            · unfold St.finish at hpc
              split at hpc
              · rw [hlast] at hpc; cases hpc
              · rw [hlast] at hpc; cases hpc
            · unfold St.fail at hpc
              split at hpc
              · rw [hlast] at hpc; cases hpc
              · split at hpc
                · rw [hlast] at hpc; cases hpc
                · rw [hlast] at hpc; cases hpc
              · rw [hlast] at hpc; cases hpc
          · refine ended_order (t := t) (s := { s.setLink l { s.links l with uart := true, app := true } with api := some l })
              ht hk (fun t' ha' => h.one t' t ha' ha) ?_ hh (fun _ => hl.symm)
            intro l' k1 k2
            have k1' : OfApp s l' := by
              refine ⟨k1.1, ?_⟩
              have := k1.2
              rwa [show (({ s.setLink l { s.links l with uart := true, app := true } with api := some l } : St).links
                l').owner = (s.links l').owner from setLink_owner (by rfl) l'] at this
            have hll : l' = l := by
              refine Classical.byContradiction fun hne => ?_
              have k2' : Live s l' := (live_iff (upd_other hne)).mp k2
              rcases h.tidy l' k1' k2' with ⟨m1, -⟩ | ⟨t', m1, m2, -⟩
              · exact m1 t ha
              · rw [h.one t' t m1 ha, hl] at m2
                cases m2
                exact hne rfl
            subst hll
            refine ⟨hl, rfl, ?_⟩
            show (upd s.links l' _ l').uart = true
            rw [upd_same]
        · next hkl => cases hkl
      · exact h
    · exact h
  · next t a =>
    split
    · next hp =>
      have ht : t < s.ntasks := running_lt hi (by rw [hp]; exact nofun)
      rcases resume_ended c s t a with hh | hh
      · rw [hh]; exact h
      · by_cases hk : (s.tasks t).kind = .probe
        · exact ended_probe hi h hk hh
        · have ha : Active s t := ⟨ht, hk, fun o => by rw [hp]; exact nofun⟩
          refine ended_order ht hk (fun t' ha' => h.one t' t ha' ha) (fun l k1 k2 => ?_) hh
            (fun _ => h.api t ha hp)
          rcases h.tidy l k1 k2 with ⟨m1, -⟩ | ⟨t', m1, m2, m3⟩
          · exact absurd ha (m1 t)
          · have := h.one t' t m1 ha
            subst this
            have h2 := (hi.task t').2
            rw [hp] at h2
            obtain ⟨l', hl', h3, -⟩ := h2
            rw [m2] at hl'
            cases hl'
            refine ⟨m2, by rw [h.api t' ha hp, m2], h3.resolve_right (live_open (hi.link l) k2)⟩
    · exact h
  · next t =>
    split
    · exact h
    · split
      · exact ended_probe hi h ho (fail_ended' _ _ _)
      · exact h
  · next t =>
    split
    · exact h
    · next hk _ =>
      split
      · exact ended_probe hi h hk (fail_ended' _ _ _)
      · exact h
    · exact h
  · next l =>
    dsimp only
    split
    · next hm =>
      refine order_links h rfl rfl rfl rfl fun l' => ⟨setLink_owner (by rfl) l', ?_, ?_⟩
      · by_cases he : l' = l
        · subst he
          exact fun _ => .inl hm.1
        · exact (live_iff (upd_other he)).mp
      · intro _ hu
        by_cases he : l' = l
        · subst he
          show (upd s.links l' _ l').uart = true
          rw [upd_same]
          exact hu
        · show (upd s.links l _ l').uart = true
          rw [upd_other he]
          exact hu
    · exact h
  · next l =>
    split
    · next hm =>
      have gone : ∀ l', Live (s.setLink l { s.links l with transport := .closed }) l' → l' ≠ l ∧ Live s l' := by
        intro l' hl'
        by_cases he : l' = l
        · subst he
          exfalso
          rcases hl' with hh | hh
          · have hh : (upd s.links l' _ l').transport = _ := hh
            rw [upd_same] at hh
            cases hh
          · have hh : (upd s.links l' _ l').transport = _ := hh.1
            rw [upd_same] at hh
            cases hh
        · exact ⟨he, (live_iff (upd_other he)).mp hl'⟩
      have base : Order (s.setLink l { s.links l with transport := .closed }) := by
        refine order_links h rfl rfl rfl rfl fun l' => ⟨setLink_owner (by rfl) l', fun k => (gone l' k).2, fun k hu => ?_⟩
        show (upd s.links l _ l').uart = true
        rw [upd_other (gone l' k).1]
        exact hu
      unfold St.lost
      dsimp only
      split
      · next hop =>
        split
        · next hap =>
          have hna := ho hop hap
          have key : Order ((s.setLink l { s.links l with transport := .closed }).spawn .reconnect) := by
            refine order_spawn (s := s.setLink l _) ?_ hna (fun l' k1 k2 => ?_) _
            · intro l' hl'
              have := hown l' hl'
              rw [setLink_owner (by rfl)]
              exact this
            · obtain ⟨k3, k4⟩ := gone l' k2
              have k1 : OfApp s l' := by
                unfold OfApp at k1
                rw [setLink_owner (by rfl)] at k1
                exact k1
              have hlive : Live s l := .inr ⟨hm, hop⟩
              rcases h.tidy l (happ l hap) hlive with ⟨-, m2, -⟩ | ⟨t, m1, -⟩
              · rcases h.tidy l' k1 k4 with ⟨-, n2, -⟩ | ⟨t, n1, -⟩
                · rw [m2] at n2
                  cases n2
                  exact k3 rfl
                · exact hna t n1
              · exact hna t m1
          exact order_links key rfl rfl rfl rfl fun l' => ⟨rfl, id, fun _ => id⟩
        · exact order_links base rfl rfl rfl rfl fun l' => ⟨rfl, id, fun _ => id⟩
      · exact base
    · exact h

theorem order_run {c : Config} {evs : List Ev} (h : OrderlyRun c evs) : Order (run c evs) := by
  induction evs using list_induction with
  | h0 =>
    exact ⟨fun t t' h1 => absurd h1.1 (Nat.not_lt_zero _), fun l h1 => absurd h1.1 (Nat.not_lt_zero _),
      fun t h1 => absurd h1.1 (Nat.not_lt_zero _)⟩
  | hs evs ev ih =>
    rw [run_snoc]
    refine order_step (inv_run c evs) (own_run c evs) (appLink_run c evs) (ih fun a ev' b hab => ?_)
      (h evs ev [] rfl)
    exact h a ev' (b ++ [ev]) (by rw [hab]; simp)

/-! ## After a shutdown -/

theorem live_ended {s s' : St} {t l : Nat} {hist : List Act} (h : Ended s t hist s') (hl : Live s' l) : Live s l := by
  have own : Live (s.closeOwn t) l → Live s l := by
    intro hl
    rcases closeOwn_cases s t with hh | ⟨l', hh⟩
    · rwa [hh] at hl
    · rw [hh] at hl
      exact live_close hl
  cases h with
  | next => exact hl
  | returned => exact hl
  | raised => exact hl
  | found => exact own hl
  | notFound => exact own hl
  | again => exact live_closeApi hl

theorem live_resume {c : Config} {s : St} {t l : Nat} {a : Act} (hl : Live (s.resume c t a) l) : Live s l := by
  rcases resume_ended c s t a with h | h
  · rwa [h] at hl
  · exact live_ended h hl

theorem live_connect {c : Config} {s : St} {t l : Nat} {ports : List PortInfo} {opens : Option PyErr} {d : Nat}
    (hne : l ≠ s.nlinks) (hl : Live (s.connect c t ports opens d) l) : Live s l := by
  have base : ∀ k : Link, Live ({ s with nlinks := s.nlinks + 1, now := s.now + d }.setLink s.nlinks k) l →
      Live s l := fun k => (live_iff (upd_other hne)).mp
  unfold St.connect at hl
  dsimp only at hl
  split at hl
  · exact base _ hl
  · have hl := live_resume hl
    exact base _ hl
  · have hl := live_resume hl
    exact base _ hl

/-- Only a new connection becomes live. -/
theorem live_step {c : Config} {s : St} {ev : Ev} {l : Nat} (hlt : l < s.nlinks) (h : Live (step c s ev) l) :
    Live s l := by
  unfold step at h
  split at h
  · exact h
  · exact h
  · exact h
  · exact live_closeApi h
  · split at h
    · unfold St.begin at h
      split at h
      · exact live_closeApi h
      · split at h
        · exact live_connect (Nat.ne_of_lt hlt) h
        · exact h
      · exact live_connect (Nat.ne_of_lt hlt) h
      · exact live_connect (Nat.ne_of_lt hlt) h
      · exact h
    · exact h
  · next l' =>
    dsimp only at h
    split at h
    · next hm =>
      by_cases he : l = l'
      · subst he; exact .inl hm.1
      · exact (live_iff (upd_other he)).mp h
    · exact h
  · split at h
    · split at h
      · exact h
      · exact h
    · exact h
  · split at h
    · split at h
      · have set : ∀ l' (k : Link), k.transport = (s.links l').transport → k.isOpen = (s.links l').isOpen →
            Live (s.setLink l' k) l → Live s l := by
          intro l' k k1 k2 hh
          by_cases he : l = l'
          · subst he
            unfold Live at hh ⊢
            simp only [St.setLink, upd_same, k1, k2] at hh
            exact hh
          · exact (live_iff (upd_other he)).mp hh
        unfold St.connected at h
        split at h
        · exact set _ _ (by rfl) (by rfl) (live_resume h)
        · next l' _ _ =>
          have h := live_resume h
          exact set l' { s.links l' with uart := true, app := true } rfl rfl h
        · exact h
      · exact h
    · exact h
  · split at h
    · exact live_resume h
    · exact h
  · split at h
    · exact h
    · split at h
      · exact live_ended (fail_ended' _ _ _) h
      · exact h
  · split at h
    · exact h
    · split at h
      · exact live_ended (fail_ended' _ _ _) h
      · exact h
    · exact h
  · next l' =>
    dsimp only at h
    split at h
    · next hm =>
      by_cases he : l = l'
      · subst he; exact .inl hm.1
      · exact (live_iff (upd_other he)).mp h
    · exact h
  · next l' =>
    split at h
    · next hm =>
      have gone : Live (s.setLink l' { s.links l' with transport := .closed }) l → Live s l := by
        intro hh
        by_cases he : l = l'
        · subst he
          unfold Live at hh
          simp only [St.setLink, upd_same] at hh
          rcases hh with hh | hh
          · cases hh
          · cases hh.1
        · exact (live_iff (upd_other he)).mp hh
      unfold St.lost at h
      dsimp only at h
      split at h
      · split at h
        · exact gone h
        · exact gone h
      · exact gone h
    · exact h

/-- The application has no connection and does nothing to get one. -/
def Quiet (s : St) : Prop := (∀ t, ¬ Active s t) ∧ ∀ l, OfApp s l → ¬ Live s l

theorem spawned_step {c : Config} {s : St} {ev : Ev} {t : Nat} (h1 : s.ntasks ≤ t) (h2 : t < (step c s ev).ntasks) :
    (∃ b, ev = .startup b) ∨ ((step c s ev).tasks t).kind = .probe ∨
    ∃ l, ev = .lost l ∧ (s.links l).transport = .closing ∧ (s.links l).isOpen = true ∧ (s.links l).app = true := by
  cases ev with
  | startup b => exact .inl ⟨b, rfl⟩
  | probe =>
    right; left
    have h2 : t < s.ntasks + 1 := h2
    have : t = s.ntasks := by omega
    subst this
    show (upd s.tasks s.ntasks _ s.ntasks).kind = _
    rw [upd_same]
  | lost l =>
    by_cases hc : (s.links l).transport = .closing
    · by_cases hop : (s.links l).isOpen = true
      · by_cases hap : (s.links l).app = true
        · exact .inr (.inr ⟨l, rfl, hc, hop, hap⟩)
        · have : (step c s (.lost l)).ntasks = s.ntasks := by
            show ((if _ then _ else _ : St)).ntasks = _
            rw [if_pos hc]
            unfold St.lost
            dsimp only
            rw [if_pos hop, if_neg hap]
            rfl
          omega
      · have : (step c s (.lost l)).ntasks = s.ntasks := by
          show ((if _ then _ else _ : St)).ntasks = _
          rw [if_pos hc]
          unfold St.lost
          dsimp only
          rw [if_neg hop]
          rfl
        omega
    · have : step c s (.lost l) = s := if_neg hc
      rw [this] at h2
      omega
  | tick => exact absurd h2 (Nat.not_lt.mpr h1)
  | shutdown =>
    have : (step c s .shutdown).ntasks = s.ntasks := (closeApi_frame s).1
    omega
  | made l =>
    have : (step c s (.made l)).ntasks = s.ntasks := by
      show ((if _ then _ else _ : St)).ntasks = _
      split <;> rfl
    omega
  | «break» l =>
    have : (step c s (.break l)).ntasks = s.ntasks := by
      show ((if _ then _ else _ : St)).ntasks = _
      split <;> rfl
    omega
  | begin t' ports opens d =>
    have : (step c s (.begin t' ports opens d)).ntasks = s.ntasks := by
      show ((if _ then _ else _ : St)).ntasks = _
      split
      · unfold St.begin
        split
        · exact (closeApi_frame s).1
        · split
          · exact (connect_frame c s t' ports opens d).1
          · rfl
        · exact (connect_frame c s t' ports opens d).1
        · exact (connect_frame c s t' ports opens d).1
        · rfl
      · rfl
    omega
  | write t' =>
    have : (step c s (.write t')).ntasks = s.ntasks := by
      unfold step
      dsimp only
      split
      · split <;> rfl
      · rfl
    omega
  | settled t' =>
    have : (step c s (.settled t')).ntasks = s.ntasks := by
      unfold step
      dsimp only
      split
      · split
        · unfold St.connected
          split
          · exact (resume_frame c _ t' _).1
          · exact (resume_frame c _ t' _).1
          · rfl
        · rfl
      · rfl
    omega
  | act t' a =>
    have : (step c s (.act t' a)).ntasks = s.ntasks := by
      unfold step
      dsimp only
      split
      · exact (resume_frame c _ t' _).1
      · rfl
    omega
  | cancel t' =>
    have : (step c s (.cancel t')).ntasks = s.ntasks := by
      unfold step
      dsimp only
      split
      · rfl
      · split
        · exact (ended_frame (fail_ended' _ _ _)).1
        · rfl
    omega
  | timeout t' =>
    have : (step c s (.timeout t')).ntasks = s.ntasks := by
      unfold step
      dsimp only
      split
      · rfl
      · split
        · exact (ended_frame (fail_ended' _ _ _)).1
        · rfl
      · rfl
    omega

theorem quiet_step {c : Config} {s : St} {ev : Ev} (hi : Inv c s) (hown : Own s) (happ : AppLink s)
    (h : Quiet s) (hev : ∀ b, ev ≠ .startup b) : Quiet (step c s ev) := by
  have hs := step_step (c := c) (s := s) ev
  have ended : ∀ t, t < s.ntasks → (s.tasks t).kind ≠ .probe → ∃ o, (s.tasks t).pc = .done o :=
    fun t ht hk => Classical.byContradiction fun hn => h.1 t ⟨ht, hk, fun o ho => hn ⟨o, ho⟩⟩
  constructor
  · intro t ha
    rcases Nat.lt_or_ge t s.ntasks with hlt | hge
    · have hk := ha.2.1
      rw [(hs.kind t hlt).1] at hk
      obtain ⟨o, ho⟩ := ended t hlt hk
      exact ha.2.2 o (by rw [hs.done t o hlt ho]; exact ho)
    · rcases spawned_step hge ha.1 with ⟨b, rfl⟩ | hk | ⟨l, -, h1, h2, h3⟩
      · exact hev b rfl
      · exact ha.2.1 hk
      · exact h.2 l (happ l h3) (.inr ⟨h1, h2⟩)
  · intro l hof hl
    rcases Nat.lt_or_ge l s.nlinks with hlt | hge
    · refine h.2 l ⟨hlt, ?_⟩ (live_step hlt hl)
      have := hof.2
      rwa [hs.owner l hlt, (hs.kind _ (hown l hlt).1).1] at this
    · obtain ⟨h1, h2⟩ := hs.fresh l hge hof.1
      have hk := hof.2
      rw [(hs.kind _ h1).1] at hk
      obtain ⟨o, ho⟩ := ended _ h1 hk
      rw [hs.done _ o h1 ho] at h2
      exact absurd ((hi.task _).1 l h2).1 (Nat.not_lt.mpr hge)

theorem quiet_run {c : Config} {a b : List Ev} (h : Quiet (run c a)) (hb : ∀ x, Ev.startup x ∉ b) :
    Quiet (run c (a ++ b)) := by
  induction b using list_induction with
  | h0 => rwa [List.append_nil]
  | hs b ev ih =>
    rw [← List.append_assoc, run_snoc]
    exact quiet_step (inv_run c _) (own_run c _) (appLink_run c _)
      (ih fun x hx => hb x (List.mem_append_left _ hx))
      fun x he => hb x (he ▸ List.mem_append_right _ (List.mem_singleton_self _))

/-! ## Which ports are opened -/

theorem opened_close {s : St} {l l' : Nat} {x : Settings} (h : Note.opened l x ∈ (s.closeLink l').log) :
    Note.opened l x ∈ s.log := by
  unfold St.closeLink at h
  dsimp only at h
  split at h
  · simpa [St.note, St.setLink] using h
  · exact h

theorem opened_ended {s s' : St} {t l : Nat} {hist : List Act} {x : Settings} (he : Ended s t hist s')
    (h : Note.opened l x ∈ s'.log) : Note.opened l x ∈ s.log := by
  have h1 : Note.opened l x ∈ s.closeApi.log → Note.opened l x ∈ s.log := by
    intro h
    rcases closeApi_cases s with hh | ⟨l', hh⟩
    · rwa [hh] at h
    · rw [hh] at h; exact opened_close h
  have h2 : Note.opened l x ∈ (s.closeOwn t).log → Note.opened l x ∈ s.log := by
    intro h
    rcases closeOwn_cases s t with hh | ⟨l', hh⟩
    · rwa [hh] at h
    · rw [hh] at h; exact opened_close h
  cases he with
  | next => exact h
  | returned => exact h
  | raised => exact h
  | found => exact h2 h
  | notFound => exact h2 h
  | again => exact h1 h

theorem opened_resume {c : Config} {s : St} {t l : Nat} {a : Act} {x : Settings}
    (h : Note.opened l x ∈ (s.resume c t a).log) : Note.opened l x ∈ s.log := by
  rcases resume_ended c s t a with hh | hh
  · rwa [hh] at h
  · exact opened_ended hh h

theorem opened_connect {c : Config} {s : St} {t l : Nat} {ports : List PortInfo} {opens : Option PyErr} {d : Nat}
    {x : Settings} (h : Note.opened l x ∈ (s.connect c t ports opens d).log) :
    Note.opened l x ∈ s.log ∨ opens = none ∧ portSettings ports c.device = .ok x := by
  unfold St.connect at h
  dsimp only at h
  split at h
  · next hx =>
    rcases List.mem_append.mp h with h | h
    · exact .inl h
    · cases List.mem_singleton.mp h
      exact .inr ⟨rfl, hx⟩
  · have h := opened_resume h
    exact .inl h
  · have h := opened_resume h
    exact .inl h

theorem opened_step {c : Config} {s : St} {ev : Ev} {l : Nat} {x : Settings}
    (h : Note.opened l x ∈ (step c s ev).log) :
    Note.opened l x ∈ s.log ∨ ∃ t ports d, ev = .begin t ports none d ∧ portSettings ports c.device = .ok x := by
  have api : Note.opened l x ∈ s.closeApi.log → Note.opened l x ∈ s.log := by
    intro h
    rcases closeApi_cases s with hh | ⟨l', hh⟩
    · rwa [hh] at h
    · rw [hh] at h; exact opened_close h
  have note : ∀ n, (∀ l x, n ≠ Note.opened l x) → Note.opened l x ∈ s.log ++ [n] → Note.opened l x ∈ s.log := by
    intro n hn h
    rcases List.mem_append.mp h with h | h
    · exact h
    · exact absurd (List.mem_singleton.mp h).symm (hn l x)
  unfold step at h
  split at h
  · exact .inl h
  · exact .inl h
  · exact .inl h
  · exact .inl (api h)
  · next t ports opens d =>
    have con : Note.opened l x ∈ (s.connect c t ports opens d).log → Note.opened l x ∈ s.log ∨ ∃ t' ports' d',
        Ev.begin t ports opens d = .begin t' ports' none d' ∧ portSettings ports' c.device = .ok x := by
      intro h
      rcases opened_connect h with h | ⟨rfl, h'⟩
      · exact .inl h
      · exact .inr ⟨t, ports, d, rfl, h'⟩
    split at h
    · unfold St.begin at h
      split at h
      · exact .inl (api h)
      · split at h
        · exact con h
        · exact .inl h
      · exact con h
      · exact con h
      · exact .inl h
    · exact .inl h
  · left
    dsimp only at h
    split at h
    · exact h
    · exact h
  · left
    split at h
    · split at h
      · exact note _ (fun _ _ hh => by cases hh) h
      · exact h
    · exact h
  · left
    split at h
    · split at h
      · unfold St.connected at h
        split at h
        · have h := opened_resume h
          exact h
        · have h := opened_resume h
          exact h
        · exact h
      · exact h
    · exact h
  · left
    split at h
    · exact opened_resume h
    · exact h
  · left
    split at h
    · exact h
    · split at h
      · exact opened_ended (fail_ended' _ _ _) h
      · exact h
  · left
    split at h
    · exact h
    · split at h
      · exact opened_ended (fail_ended' _ _ _) h
      · exact h
    · exact h
  · left
    dsimp only at h
    split at h
    · exact h
    · exact h
  · left
    split at h
    · unfold St.lost at h
      dsimp only at h
      split at h
      · split at h
        · exact note _ (fun _ _ hh => by cases hh) h
        · exact note _ (fun _ _ hh => by cases hh) h
      · exact h
    · exact h

theorem opened_run {c : Config} {evs : List Ev} {l : Nat} {x : Settings} (h : Note.opened l x ∈ (run c evs).log) :
    ∃ t ports d, Ev.begin t ports none d ∈ evs ∧ portSettings ports c.device = .ok x := by
  induction evs using list_induction with
  | h0 => cases h
  | hs evs ev ih =>
    rw [run_snoc] at h
    rcases opened_step h with h | ⟨t, ports, d, rfl, h'⟩
    · obtain ⟨t, ports, d, h1, h2⟩ := ih h
      exact ⟨t, ports, d, List.mem_append_left _ h1, h2⟩
    · exact ⟨t, ports, d, List.mem_append_right _ (List.mem_singleton_self _), h'⟩

end Zcc.Conn
