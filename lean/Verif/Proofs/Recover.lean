import Verif.Proofs.ConnectionOrder
import Verif.Proofs.StartZnp

/-!
# Helper lemmas for Props/Recover
-/

namespace Zcc.Conn

open Zcc Spec

/-- The operations of a start-up end as listed, and with the last of them the start-up returns. -/
theorem acts_finish {c : Config} {t : Nat} : ∀ (h : List Act) (s : St), (s.tasks t).pc = .running →
    (s.tasks t).kind ≠ .probe → (∃ o f, (program c (s.tasks t).kind).feed (s.tasks t).hist = some (.call o f)) →
    (program c (s.tasks t).kind).feed ((s.tasks t).hist ++ h) = some (.ret ()) →
    (((h.map (Ev.act t)).foldl (step c) s).tasks t).pc = .done (.returned true) ∧
    ((h.map (Ev.act t)).foldl (step c) s).links = s.links ∧
    ((h.map (Ev.act t)).foldl (step c) s).api = s.api ∧
    ((h.map (Ev.act t)).foldl (step c) s).log = s.log
  | [], s, _, _, ⟨o, f, hf⟩, hr => by
    rw [List.append_nil, hf] at hr
    cases hr
  | a :: h, s, hp, hk, _, hr => by
    have hs : step c s (.act t a) = s.resume c t a := if_pos hp
    rw [List.map_cons, List.foldl_cons, hs]
    rw [show (s.tasks t).hist ++ a :: h = ((s.tasks t).hist ++ [a]) ++ h by
      rw [List.append_assoc]; rfl, feed_append] at hr
    unfold St.resume
    dsimp only
    match hf : (program c (s.tasks t).kind).feed ((s.tasks t).hist ++ [a]) with
    | none => rw [hf] at hr; cases hr
    | some (.call o g) =>
      rw [hf] at hr
      dsimp only
      have ih := acts_finish h (s.setTask t { s.tasks t with pc := .running, hist := (s.tasks t).hist ++ [a] })
        (by rw [upd_task]) (by rw [upd_task]; exact hk) (by rw [upd_task]; exact ⟨o, g, hf⟩)
        (by rw [upd_task]; rw [feed_append]; dsimp only; rw [hf]; exact hr)
      exact ih
    | some (.raise e) =>
      rw [hf] at hr
      cases h <;> cases hr
    | some (.ret u) =>
      rw [hf] at hr
      dsimp only
      have hh : h = [] := by
        cases h with
        | nil => rfl
        | cons b h => cases hr
      subst hh
      unfold St.finish
      rw [upd_task]
      dsimp only
      split
      · next hk' => exact absurd hk' hk
      · refine ⟨?_, rfl, rfl, rfl⟩
        show Conn.Task.pc (upd _ t _ t) = _
        rw [upd_same]
where upd_task {s : St} {t : Nat} {k : Task} : (s.setTask t k).tasks t = k := upd_same _ _ _

/-- From the moment its port is open, a task of the application gets through `connect` and a start-up
that returns. -/
theorem connect_completes {c : Config} {s : St} {t l : Nat} {h : List Act}
    (hp : (s.tasks t).pc = .connecting) (hl : (s.tasks t).link = some l) (hh : (s.tasks t).hist = [])
    (hk : (s.tasks t).kind ≠ .probe) (hlk : s.links l = { owner := t, transport := .opened })
    (hr : Returns (program c (s.tasks t).kind) (⟨.connect, .ok ()⟩ :: h) ()) :
    let s' := ([Ev.made l, .write t, .tick 1000, .settled t] ++ h.map (Ev.act t)).foldl (step c) s
    (s'.tasks t).pc = .done (.returned true) ∧
    s'.links l = { owner := t, transport := .opened, made := true, isOpen := true, uart := true, app := true } ∧
    s'.api = some l ∧ s'.log = s.log ++ [.wakeup l] := by
  obtain ⟨k, hkeq⟩ : ∃ k, s.tasks t = k := ⟨_, rfl⟩
  rw [hkeq] at hp hl hh hk hr
  dsimp only
  rw [List.foldl_append]
  have e1 : step c s (.made l) = s.setLink l { owner := t, transport := .opened, made := true, isOpen := true } := by
    show (if _ then _ else _ : St) = _
    rw [hlk]
    rfl
  have e2 : step c (step c s (.made l)) (.write t) =
      ((s.setLink l { owner := t, transport := .opened, made := true, isOpen := true }).setTask t
        { k with pc := .settling (s.now + 1000) }).note (.wakeup l) := by
    rw [e1]
    show (match ((s.setLink l _).tasks t).link, ((s.setLink l _).tasks t).pc with
      | some l, .connecting => _
      | _, _ => _) = _
    rw [show (s.setLink l { owner := t, transport := .opened, made := true, isOpen := true }).tasks t = k from hkeq,
      hl, hp]
    dsimp only
    rw [if_pos (by show Link.made (upd _ l _ l) = true; rw [upd_same])]
    unfold St.setPc
    rw [show (s.setLink l { owner := t, transport := .opened, made := true, isOpen := true }).tasks t = k from hkeq]
    rw [← hl]
    rfl
  obtain ⟨s3, hs3⟩ : ∃ s3, s3 = ([.made l, .write t, .tick 1000] : List Ev).foldl (step c) s := ⟨_, rfl⟩
  have e3 : s3 = { ((s.setLink l { owner := t, transport := .opened, made := true, isOpen := true }).setTask t
        { k with pc := .settling (s.now + 1000) }).note (.wakeup l) with now := s.now + 1000 } := by
    rw [hs3, List.foldl_cons, List.foldl_cons, e2]
    rfl
  have t3 : s3.tasks t = { k with pc := .settling (s.now + 1000) } := by
    rw [e3]
    exact upd_same _ _ _
  have l3 : s3.links l = { owner := t, transport := .opened, made := true, isOpen := true } := by
    rw [e3]
    exact upd_same _ _ _
  have n3 : s3.now = s.now + 1000 := by rw [e3]
  have g3 : s3.log = s.log ++ [.wakeup l] := by rw [e3]; rfl
  rw [show ([.made l, .write t, .tick 1000, .settled t] : List Ev).foldl (step c) s =
    step c s3 (.settled t) by rw [hs3]; rfl]
  have e4 : step c s3 (.settled t) = s3.connected c t := by
    show (match (s3.tasks t).pc with | .settling u => _ | _ => _) = _
    rw [t3]
    dsimp only
    rw [if_pos (by rw [n3]; exact Nat.le_refl _)]
  obtain ⟨s4, hs4⟩ : ∃ s4 : St, s4 =
      { s3.setLink l { owner := t, transport := .opened, made := true, isOpen := true, uart := true, app := true }
        with api := some l } := ⟨_, rfl⟩
  have e5 : s3.connected c t = s4.resume c t ⟨.connect, .ok ()⟩ := by
    unfold St.connected
    rw [t3, hs4]
    dsimp only
    rw [hl]
    split
    · next hk' => exact absurd hk' hk
    · next heq hk' => cases heq; rw [l3]
    · next heq => cases heq
  have t4 : s4.tasks t = { k with pc := .settling (s.now + 1000) } := by rw [hs4]; exact t3
  have hc : ∃ o f, (program c k.kind).feed [⟨.connect, .ok ()⟩] = some (.call o f) := by
    cases k.kind <;> exact ⟨_, _, rfl⟩
  obtain ⟨o, f, hof⟩ := hc
  have e6 : s4.resume c t ⟨.connect, .ok ()⟩ = s4.setTask t { k with pc := .running, hist := [⟨.connect, .ok ()⟩] } := by
    unfold St.resume
    dsimp only
    rw [t4]
    dsimp only
    rw [hh, List.nil_append, hof]
  rw [e4, e5, e6]
  have hfin := acts_finish (c := c) (t := t) h
    (s4.setTask t { k with pc := .running, hist := [⟨.connect, .ok ()⟩] })
    (by rw [acts_finish.upd_task]) (by rw [acts_finish.upd_task]; exact hk)
    (by rw [acts_finish.upd_task]; exact ⟨o, f, hof⟩) (by rw [acts_finish.upd_task]; exact hr)
  obtain ⟨f1, f2, f3, f4⟩ := hfin
  refine ⟨f1, ?_, ?_, ?_⟩
  · rw [f2]
    show s4.links l = _
    rw [hs4]
    exact upd_same _ _ _
  · rw [f3]
    show s4.api = _
    rw [hs4]
  · rw [f4]
    show s4.log = _
    rw [hs4]
    exact g3

/-! ### Reconnect loops and reported losses -/

theorem told_close (s : St) (l : Nat) : lossesReported (s.closeLink l).log = lossesReported s.log := by
  unfold St.closeLink
  dsimp only
  split
  · show lossesReported (s.log ++ [_]) = _
    unfold lossesReported
    rw [List.countP_append]
    rfl
  · rfl

theorem told_closeApi (s : St) : lossesReported s.closeApi.log = lossesReported s.log := by
  rcases closeApi_cases s with h | ⟨l, h⟩
  · rw [h]
  · rw [h]; exact told_close s l

theorem told_closeOwn (s : St) (t : Nat) : lossesReported (s.closeOwn t).log = lossesReported s.log := by
  rcases closeOwn_cases s t with h | ⟨l, h⟩
  · rw [h]
  · rw [h]; exact told_close s l

theorem told_ended {s s' : St} {t : Nat} {hist : List Act} (h : Ended s t hist s') :
    lossesReported s'.log = lossesReported s.log := by
  cases h with
  | next => rfl
  | returned => rfl
  | raised => rfl
  | found => exact told_closeOwn s t
  | notFound => exact told_closeOwn s t
  | again => exact told_closeApi s

theorem told_resume (c : Config) (s : St) (t : Nat) (a : Act) :
    lossesReported (s.resume c t a).log = lossesReported s.log := by
  rcases resume_ended c s t a with h | h
  · rw [h]
  · exact told_ended h

theorem told_connect (c : Config) (s : St) (t : Nat) (ports : List PortInfo) (opens : Option PyErr) (d : Nat) :
    lossesReported (s.connect c t ports opens d).log = lossesReported s.log := by
  unfold St.connect
  dsimp only
  split
  · show lossesReported (s.log ++ [_]) = _
    unfold lossesReported
    rw [List.countP_append]
    rfl
  · exact told_resume c ((({ s with nlinks := s.nlinks + 1, now := s.now + d } : St).setLink s.nlinks
      { owner := t }).setTask t { s.tasks t with pc := .connecting, link := some s.nlinks, hist := [] }) t _
  · exact told_resume c ((({ s with nlinks := s.nlinks + 1, now := s.now + d } : St).setLink s.nlinks
      { owner := t }).setTask t { s.tasks t with pc := .connecting, link := some s.nlinks, hist := [] }) t _

/-- An event starts no task and reports no loss, or is a call by the user, or reports a loss and starts a
reconnect loop. -/
theorem told_step (c : Config) (s : St) (ev : Ev) :
    (lossesReported (step c s ev).log = lossesReported s.log ∧ (step c s ev).ntasks = s.ntasks) ∨
    (∃ k, k ≠ .reconnect ∧ step c s ev = s.spawn k) ∨
    (lossesReported (step c s ev).log = lossesReported s.log + 1 ∧ (step c s ev).ntasks = s.ntasks + 1 ∧
      ((step c s ev).tasks s.ntasks).kind = .reconnect) := by
  cases ev with
  | startup b => exact .inr (.inl ⟨_, (fun h => by cases h), rfl⟩)
  | probe => exact .inr (.inl ⟨_, (fun h => by cases h), rfl⟩)
  | tick => exact .inl ⟨rfl, rfl⟩
  | shutdown => exact .inl ⟨told_closeApi s, (closeApi_frame s).1⟩
  | made l =>
    left
    show lossesReported ((if _ then _ else _ : St)).log = _ ∧ ((if _ then _ else _ : St)).ntasks = _
    split <;> exact ⟨rfl, rfl⟩
  | «break» l =>
    left
    show lossesReported ((if _ then _ else _ : St)).log = _ ∧ ((if _ then _ else _ : St)).ntasks = _
    split <;> exact ⟨rfl, rfl⟩
  | begin t' ports opens d =>
    left
    show lossesReported ((if _ then _ else _ : St)).log = _ ∧ ((if _ then _ else _ : St)).ntasks = _
    split
    · unfold St.begin
      split
      · exact ⟨told_closeApi s, (closeApi_frame s).1⟩
      · split
        · exact ⟨told_connect c s t' ports opens d, (connect_frame c s t' ports opens d).1⟩
        · exact ⟨rfl, rfl⟩
      · exact ⟨told_connect c s t' ports opens d, (connect_frame c s t' ports opens d).1⟩
      · exact ⟨told_connect c s t' ports opens d, (connect_frame c s t' ports opens d).1⟩
      · exact ⟨rfl, rfl⟩
    · exact ⟨rfl, rfl⟩
  | write t' =>
    left
    unfold step
    dsimp only
    split
    · split
      · refine ⟨?_, rfl⟩
        show lossesReported (s.log ++ [_]) = _
        unfold lossesReported
        rw [List.countP_append]
        rfl
      · exact ⟨rfl, rfl⟩
    · exact ⟨rfl, rfl⟩
  | settled t' =>
    left
    unfold step
    dsimp only
    split
    · split
      · unfold St.connected
        split
        · exact ⟨told_resume c _ t' _, (resume_frame c _ t' _).1⟩
        · exact ⟨told_resume c _ t' _, (resume_frame c _ t' _).1⟩
        · exact ⟨rfl, rfl⟩
      · exact ⟨rfl, rfl⟩
    · exact ⟨rfl, rfl⟩
  | act t' a =>
    left
    unfold step
    dsimp only
    split
    · exact ⟨told_resume c _ t' _, (resume_frame c _ t' _).1⟩
    · exact ⟨rfl, rfl⟩
  | cancel t' =>
    left
    unfold step
    dsimp only
    split
    · exact ⟨rfl, rfl⟩
    · split
      · exact ⟨told_ended (fail_ended' _ _ _), (ended_frame (fail_ended' _ _ _)).1⟩
      · exact ⟨rfl, rfl⟩
  | timeout t' =>
    left
    unfold step
    dsimp only
    split
    · exact ⟨rfl, rfl⟩
    · split
      · exact ⟨told_ended (fail_ended' _ _ _), (ended_frame (fail_ended' _ _ _)).1⟩
      · exact ⟨rfl, rfl⟩
    · exact ⟨rfl, rfl⟩
  | lost l =>
    unfold step
    dsimp only
    split
    · unfold St.lost
      dsimp only
      split
      · split
        · right; right
          refine ⟨?_, rfl, ?_⟩
          · show lossesReported (s.log ++ [_]) = _
            unfold lossesReported
            rw [List.countP_append]
            rfl
          · show Conn.Task.kind (upd _ s.ntasks _ s.ntasks) = _
            rw [upd_same]
        · left
          refine ⟨?_, rfl⟩
          show lossesReported (s.log ++ [_]) = _
          unfold lossesReported
          rw [List.countP_append]
          rfl
      · exact .inl ⟨rfl, rfl⟩
    · exact .inl ⟨rfl, rfl⟩

theorem loopsBegun_congr {s s' : St} (hk : ∀ t, t < s.ntasks → (s'.tasks t).kind = (s.tasks t).kind) :
    (List.range s.ntasks).countP (fun t => (s'.tasks t).kind = .reconnect) = loopsBegun s := by
  unfold loopsBegun
  apply List.countP_congr
  intro t ht
  rw [hk t (List.mem_range.mp ht)]

theorem loops_run (c : Config) (evs : List Ev) :
    loopsBegun (run c evs) = lossesReported (run c evs).log := by
  refine run_induction (P := fun s => loopsBegun s = lossesReported s.log) rfl ?_ evs
  intro evs ev ih
  have hs := step_step (c := c) (s := run c evs) ev
  have hkind := fun t ht => (hs.kind t ht).1
  have hc := loopsBegun_congr hkind
  rcases told_step c (run c evs) ev with ⟨h1, h2⟩ | ⟨k, hk, h⟩ | ⟨h1, h2, h3⟩
  · rw [h1, ← ih, ← hc]
    unfold loopsBegun
    rw [h2]
  · have hl : (step c (run c evs) ev).log = (run c evs).log := by rw [h]; rfl
    have hn : (step c (run c evs) ev).ntasks = (run c evs).ntasks + 1 := by rw [h]; rfl
    have hkk : ((step c (run c evs) ev).tasks (run c evs).ntasks).kind = k := by
      rw [h]
      show Conn.Task.kind (upd _ _ _ _) = _
      rw [upd_same]
    rw [hl, ← ih, ← hc]
    unfold loopsBegun
    rw [hn, List.range_succ, List.countP_append, List.countP_singleton, hkk]
    simp [hk]
  · rw [h1, ← ih, ← hc]
    unfold loopsBegun
    rw [h2, List.range_succ, List.countP_append, List.countP_singleton, h3]
    simp

end Zcc.Conn
