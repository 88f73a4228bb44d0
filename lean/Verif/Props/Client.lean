import Verif.Proofs.Radio
import Verif.Proofs.ClientLimit
import Verif.Props.Start

/-!
# Start-up on the wire: C43, C46, C49, C57, C60

`Verif/Props/Start.lean` speaks about the operations of start-up and their results, whatever the
results are. Here the coroutine runs on the API (`Verif/Model/Client.lean`), next to others, and the
results come from the radio. `(Client.run p evs).api.log` is the log of the API.
-/

namespace Zcc

open Spec

/-! ## C60: the operations of a coroutine are on the wire -/

/-- C60: what a coroutine goes through is one of its histories, and it returns or raises what that
history says. -/
theorem c60_history {α : Type} (p : Prog α) (evs : List ClientEvent) :
    Runs p (Client.run p evs).hist ∧
    (∀ a, (Client.run p evs).prog = .ret a → Returns p (Client.run p evs).hist a) ∧
    (∀ e, (Client.run p evs).prog = .raise e → Raises p (Client.run p evs).hist e) := by
  obtain ⟨past, i⟩ := client_inv p evs
  exact ⟨⟨_, i.fed⟩, fun a h => i.fed.trans (by rw [h]), fun e h => i.fed.trans (by rw [h])⟩

/-- C60: the operations follow each other in the log. A request that succeeded was written to the port
and an acceptable answer was received after that, both while the operation lasted; what a wait
returned was received after its waiter was registered and is what the waiter asks for. -/
theorem c60_traced {α : Type} (p : Prog α) (evs : List ClientEvent)
    (hu : Unshared evs (Client.run p evs).hist) :
    ∃ past rest, (Client.run p evs).api.log = past ++ rest ∧ Traced past (Client.run p evs).hist ∧
      Faithful (Client.run p evs).hist := by
  obtain ⟨past, i⟩ := client_inv p evs
  obtain ⟨rest, h⟩ := i.log
  have ht := i.trace hu
  refine ⟨past, rest, h.symm, ht, ht.faithful ?_⟩
  have := regs_nodup i.api
  rw [← h, List.filterMap_append] at this
  exact this.sublist (List.sublist_append_left _ _)

/-- C60: the requests that succeeded are written to the port in their order. -/
theorem c60_written {α : Type} (p : Prog α) (evs : List ClientEvent)
    (hu : Unshared evs (Client.run p evs).hist) :
    ∃ bs : List (List UInt8), (answered (Client.run p evs).hist).map Gateway.send = bs.map .ok ∧
      bs.Sublist (writes (Client.run p evs).api.log) := by
  obtain ⟨past, rest, h1, h2, -⟩ := c60_traced p evs hu
  obtain ⟨bs, h3, h4⟩ := h2.written
  refine ⟨bs, h3, ?_⟩
  unfold writes at h4 ⊢
  rw [h1, List.filterMap_append]
  exact h4.trans (List.sublist_append_left _ _)

/-- `start_znp` as `form_network` calls it. -/
def exampleStart : Prog String := startZnp 1 exampleOptions ((0x0B84 : Nat) : Int) false

theorem example_start (P : Prog String → Prop)
    (h : P (startZnp 1 exampleOptions ((0x0B84 : Nat) : Int) false)) : P exampleStart := h

/-- A session of `exampleStart` with an empty stick. -/
def exampleSession : List ClientEvent := Radio.session 0 80 (fun _ => none) exampleStart

/-- Everything a running radio needs to do for `start_znp` to set up an empty stick; the coroutine
returns and has written 34 commands. -/
theorem session_reset :
    Radio.done "reset" (Client.run exampleStart
      exampleSession).prog = true ∧
    Radio.alone exampleSession = true ∧
    (writes (Client.run exampleStart
      exampleSession).api.log).length
        = 34 := by decide +kernel

/-- The theorems of C60 apply to that session, and 33 of the commands are requests that succeeded
(one was sent by a task of its own). -/
example : ∃ bs : List (List UInt8),
    bs.Sublist (writes (Client.run exampleStart
      exampleSession).api.log) ∧
    bs.length = 33 := by
  obtain ⟨bs, h1, h2⟩ := c60_written exampleStart _
    (Radio.alone_unshared (Radio.alone_alone session_reset.2.1))
  have h3 := congrArg List.length h1
  rw [List.length_map, List.length_map] at h3
  refine ⟨bs, h2, h3 ▸ ?_⟩
  decide +kernel

/-- C60: every command of the coroutine is sent once. As long as nobody else makes requests, what was
passed to `request_raw`, with the tasks that have not begun to run, is what the operations of the
coroutine are about, counted with multiplicity. -/
theorem c60_once {α : Type} (p : Prog α) (evs : List ClientEvent) (ha : Alone evs) :
    (submissions (Client.run p evs).api.log ++ unsent (Client.run p evs)).Perm
      (commands (Client.run p evs).hist ++ current (Client.run p evs)) :=
  (count_inv p evs ha).count

/-- C60: ... so a coroutine that has ended and whose tasks have begun to run has submitted exactly the
commands of its history. -/
theorem c60_once_ended {α : Type} (p : Prog α) (evs : List ClientEvent) (ha : Alone evs) {a : α}
    (he : (Client.run p evs).prog = .ret a) (hs : (Client.run p evs).spawned = []) :
    (submissions (Client.run p evs).api.log).Perm (commands (Client.run p evs).hist) := by
  have h := c60_once p evs ha
  have h1 : unsent (Client.run p evs) = [] := by unfold unsent; rw [hs]; rfl
  have h2 : current (Client.run p evs) = [] := by
    unfold current
    rw [he]
    cases (Client.run p evs).pend <;> rfl
  rw [h1, h2, List.append_nil, List.append_nil] at h
  exact h

/-- The session with the empty stick: 34 commands are submitted, one of them by a task. -/
example : (submissions (Client.run exampleStart exampleSession).api.log).Perm
      (commands (Client.run exampleStart exampleSession).hist) ∧
    (commands (Client.run exampleStart exampleSession).hist).length = 34 := by
  have h : (Client.run exampleStart exampleSession).spawned = [] ∧
      (commands (Client.run exampleStart exampleSession).hist).length = 34 := by decide +kernel
  exact ⟨c60_once_ended _ _ (Radio.alone_alone session_reset.2.1) (Radio.done_eq session_reset.1) h.1, h.2⟩

/-- C60: a wait that ends with a timeout has lasted: since the coroutine asked for the waiter, at least
the time limit it gave has passed, and the waiter has got no message. -/
theorem c60_wait_limit {α : Type} (p : Prog α) (evs : List ClientEvent) (e : ClientEvent)
    {w : Nat} {m : Matcher} {timeout : Nat}
    (h : (Client.run p (evs ++ [e])).hist =
      (Client.run p evs).hist ++ [⟨.wait w, .error .timeoutError⟩])
    (hr : (⟨.waitFor m timeout, .ok w⟩ : Act) ∈ (Client.run p evs).hist) :
    ∃ time, .registered { id := w, matcher := m, timeout, sequence := none } time ∈
        (Client.run p evs).api.log ∧ time + timeout ≤ (Client.run p evs).api.now ∧
      ∀ o, .resolved w o ∉ (Client.run p evs).api.log := by
  have i := limit_inv p evs
  obtain ⟨_, ci⟩ := client_inv p evs
  have hstep : Client.run p (evs ++ [e]) = (Client.run p evs).step e := by
    unfold Client.run; rw [List.foldl_append]; rfl
  rw [hstep] at h
  obtain ⟨hf, d, hd, hle⟩ := timeout_late i e w h
  obtain ⟨-, -, time, h1, -, h2⟩ := i.reg m timeout w hr
  refine ⟨time, h1, Nat.le_trans (h2 d hd) hle, fun o ho => ?_⟩
  rw [(ci.api.wait.resIff w o).mp ho] at hf
  cases hf

/-- A coroutine that waits for the start of the network. -/
def waitStarted : Prog Obj := do
  let started ← Prog.op waitForStarted
  Prog.op (.wait started)

/-- It waits for 60 seconds in vain. -/
example : ∃ time, .registered ⟨0, ⟨.AREQ, .ZDO, "stateChangeInd", [("state", .int 9)]⟩, 60000, none⟩
      time ∈ (Client.run waitStarted [.go, .go, .api (.tick 60000)]).api.log ∧
    time + 60000 ≤ (Client.run waitStarted [.go, .go, .api (.tick 60000)]).api.now := by
  obtain ⟨time, h1, h2, -⟩ := c60_wait_limit waitStarted [.go, .go, .api (.tick 60000)] .go (w := 0)
    (m := ⟨.AREQ, .ZDO, "stateChangeInd", [("state", .int 9)]⟩) (timeout := 60000) rfl (.head _)
  exact ⟨time, h1, h2⟩

/-- C60 needs its hypothesis: if somebody passes the waiter's id to `request_raw` and that request is
refused, the waiter gets the refusal (api.py:147-148) and the wait returns it. -/
theorem c60_lent_refuted : ¬ ∀ evs : List ClientEvent, Faithful (Client.run waitStarted evs).hist := by
  intro h
  have key : ∃ o : Obj, o.commandType = .SRSP ∧
      (Client.run waitStarted [.api (.setUart true), .go,
        .api (.submit ⟨.SREQ, .SYS, "osalNvDelete", 18, [("id", .int 3840), ("len", .int 1)],
          [("id", .UINT16), ("len", .UINT16)], none⟩ (some 0) none),
        .api (.frame (Frame.of .SRSP .SYS 18 [9])), .api (.wake 0), .go, .go]).hist =
      [⟨.waitFor ⟨.AREQ, .ZDO, "stateChangeInd", [("state", .int 9)]⟩ 60000, .ok (0 : Nat)⟩,
       ⟨.wait 0, .ok o⟩] := by
    refine ⟨⟨.SRSP, .SYS, "osalNvDelete", 18, [("status", .int 9)], [("status", .UINT8)], none⟩, rfl, ?_⟩
    rfl
  obtain ⟨o, h1, h2⟩ := key
  have h3 := h _ [] _ _ (0 : Nat) [] o [] h2
  have h4 := h3.1
  rw [h1] at h4
  cases h4

/-! ## C43: results are genuine -/

/-- C43: on the API no request ends with an `AssertionError`, and no response is returned whose status
was not expected: `Genuine`, the hypothesis of `c43_crash_safe`, holds. -/
theorem c43_genuine {α : Type} (p : Prog α) (evs : List ClientEvent)
    (hu : Unshared evs (Client.run p evs).hist) :
    Runs p (Client.run p evs).hist ∧ ∀ a ∈ (Client.run p evs).hist, Genuine a := by
  obtain ⟨past, rest, -, h2, -⟩ := c60_traced p evs hu
  exact ⟨(c60_history p evs).1, h2.genuine⟩

example : ∀ a ∈ (Client.run exampleStart
    exampleSession).hist, Genuine a :=
  (c43_genuine _ _ (Radio.alone_unshared (Radio.alone_alone session_reset.2.1))).2

/-- C43 on the wire: on Z-Stack 3, when `start_znp` has initialised the stick, the second commissioning
step was written after a notification that the network runs, and that was received after the first
step began. -/
theorem c43_wire {version : Int} (hv : version = 1 ∨ version = 2) {o : Options} {g : Nat} {b : Bool}
    (evs : List ClientEvent) (hu : Unshared evs (Client.run (startZnp version o g b) evs).hist)
    {r : String} (hr : (Client.run (startZnp version o g b) evs).prog = .ret r) (hne : r ≠ "resumed") :
    ∃ t f n, StartedInd n ∧ Obj.fromUnpiFrame f = .ok n ∧
      [Entry.received f n, .sent t [0xFE, 1, 0x2F, 0x05, 2, 0x29]].Sublist
        (Client.run (startZnp version o g b) evs).api.log := by
  have hret := (c60_history _ evs).2.1 r hr
  obtain ⟨past, rest, hlog, htr, -⟩ := c60_traced _ evs hu
  obtain ⟨before, reg, w, x4, n, x2, after, he, ⟨m, timeout, rfl, hm⟩, -, -, h2, hs2⟩ :=
    c43_started hv hret hne
  obtain ⟨_, i⟩ := client_inv (startZnp version o g b) evs
  have hid : (past.filterMap Entry.regId).Nodup := by
    have := regs_nodup i.api
    rw [hlog, List.filterMap_append] at this
    exact this.sublist (List.sublist_append_left _ _)
  obtain ⟨p1, seg, rest2, hp, ht1, hl⟩ := htr.at (a := x2) (h2 := after)
    (h1 := before ++ ⟨.waitFor m timeout, .ok w⟩ :: [x4] ++ [⟨.wait w, .ok n⟩]) (by rw [he]; simp)
  have hid1 : (p1.filterMap Entry.regId).Nodup := by
    rw [hp, List.append_assoc, List.filterMap_append] at hid
    exact hid.sublist (List.sublist_append_left _ _)
  obtain ⟨q1, q2, q3, f, hq, -, -, hans, hrec⟩ := ht1.wait_after hid1 (after := []) rfl
  obtain ⟨t, hsent⟩ := logged_sent hl hs2 h2 (b := [0xFE, 1, 0x2F, 0x05, 2, 0x29]) (by decide +kernel)
  have hL : (Client.run (startZnp version o g b) evs).api.log =
      q1 ++ q2 ++ q3 ++ seg ++ (rest2 ++ rest) := by rw [hlog, hp, hq]; simp
  refine ⟨t, f, n, (hm n).mp hans, i.api.resp.recv f n ?_, ?_⟩
  · rw [hL]; simp [hrec]
  · rw [hL, show q1 ++ q2 ++ q3 ++ seg ++ (rest2 ++ rest) = (q1 ++ q2 ++ q3) ++ (seg ++ (rest2 ++ rest)) by simp]
    exact List.Sublist.append (l₁ := [_]) (List.singleton_sublist.mpr (by simp [hrec]))
      (List.singleton_sublist.mpr (List.mem_append_left _ hsent))

example : ∃ t f n, StartedInd n ∧ Obj.fromUnpiFrame f = .ok n ∧
    [Entry.received f n, .sent t [0xFE, 1, 0x2F, 0x05, 2, 0x29]].Sublist
      (Client.run exampleStart
        exampleSession).api.log :=
  example_start (fun p => ∀ evs, Unshared evs (Client.run p evs).hist →
      (Client.run p evs).prog = .ret "reset" → ∃ t f n, StartedInd n ∧ Obj.fromUnpiFrame f = .ok n ∧
        [Entry.received f n, .sent t [0xFE, 1, 0x2F, 0x05, 2, 0x29]].Sublist (Client.run p evs).api.log)
    (fun evs hu hr => c43_wire (.inl rfl) evs hu hr (by decide)) exampleSession
    (Radio.alone_unshared (Radio.alone_alone session_reset.2.1)) (Radio.done_eq session_reset.1)

/-! ## C57: the network runs -/

/-- C57 on the wire: when `start_znp` has returned, the radio was asked for its state and has answered
that it runs a network as coordinator, or it has sent the notification that it does afterwards. -/
theorem c57_wire {version : Int} {o : Options} {g : Nat} (hg : g < 65536) {b : Bool}
    (evs : List ClientEvent) (hu : Unshared evs (Client.run (startZnp version o g b) evs).hist)
    {r : String} (hr : (Client.run (startZnp version o g b) evs).prog = .ret r) :
    ∃ t f n s, Obj.fromUnpiFrame f = .ok n ∧ n.commandType = .SRSP ∧ n.subsystem = .UTIL ∧
      n.command = "getDeviceInfo" ∧ n.payload.lookup "devicestate" = some s ∧
      [Entry.sent t [0xFE, 0, 0x27, 0, 0x27], .received f n].Sublist
        (Client.run (startZnp version o g b) evs).api.log ∧
      (s = .int 9 ∨ ∃ f' ind, Obj.fromUnpiFrame f' = .ok ind ∧ StartedInd ind ∧
        [Entry.received f n, .received f' ind].Sublist
          (Client.run (startZnp version o g b) evs).api.log) := by
  have hret := (c60_history _ evs).2.1 r hr
  obtain ⟨past, rest, hlog, htr, -⟩ := c60_traced _ evs hu
  obtain ⟨before, during, after, info, n, s, he, hinfo, hop, hn, hs, -, hcase⟩ := c57_running hg hret
  obtain ⟨_, i⟩ := client_inv (startZnp version o g b) evs
  generalize Client.run (startZnp version o g b) evs = c at *
  have hid : (past.filterMap Entry.regId).Nodup := by
    have := regs_nodup i.api
    rw [hlog, List.filterMap_append] at this
    exact this.sublist (List.sublist_append_left _ _)
  have hinfo' : info = ⟨.request .UTIL "getDeviceInfo" [] none, .ok (some n)⟩ := by
    obtain ⟨op, a⟩ := info
    cases hop
    match a, hn with
    | .ok (some n'), h => cases h; rfl
  -- the exchange, in the log `L` up to the end of any later operation
  have exchange : ∀ {L : List Entry} {h2 : List Act}, Traced L (before ++ info :: h2) →
      ∃ t f, [Entry.sent t [0xFE, 0, 0x27, 0, 0x27], .received f n].Sublist L ∧
        n.commandType = .SRSP ∧ n.subsystem = .UTIL ∧ n.command = "getDeviceInfo" := by
    intro L h2 ht
    obtain ⟨p1, seg, r1, hp, -, hl⟩ := ht.at rfl
    rw [hinfo'] at hl
    obtain ⟨q, t, bs, f, hq, hw, hacc, hsub⟩ := hl
    obtain ⟨fr, h3, h4⟩ := written_frame (expected := none) hq hw
    have hbs : bs = [0xFE, 0, 0x27, 0, 0x27] := by
      cases h3.symm.trans ((congrArg Op.frame hop).symm.trans hinfo)
      exact Except.ok.inj (h4.symm.trans (by decide +kernel))
    subst hbs
    have hq' : q = ⟨.SREQ, .UTIL, "getDeviceInfo", 0, [], [], none⟩ :=
      Except.ok.inj (hq.symm.trans (by decide +kernel))
    subst hq'
    refine ⟨t, f, ?_, ?_⟩
    · rw [hp]
      exact hsub.trans ((List.sublist_append_right _ _).trans (List.sublist_append_left _ _))
    · rcases hacc with ⟨-, ⟨h5, h6, h7⟩, -⟩ | ⟨h5, -⟩
      · exact ⟨h5, h6, h7⟩
      · cases h5
  have lift : ∀ {l L : List Entry}, L.Sublist past → l.Sublist L → l.Sublist c.api.log := by
    intro l L h1 h2
    rw [hlog]
    exact (h2.trans h1).trans (List.sublist_append_left _ _)
  rcases hcase with ⟨h9, -⟩ | ⟨-, reg, w, start, ind, rfl, ⟨m, timeout, rfl, hm⟩, -, -⟩
  · obtain ⟨t, f, h1, h2, h3, h4⟩ := exchange (L := past) (h2 := during ++ after)
      (by rw [he] at htr; simpa using htr)
    refine ⟨t, f, n, s, i.api.resp.recv f n ((lift (.refl _) h1).subset (by simp)), h2, h3, h4, hs,
      lift (.refl _) h1, .inl h9⟩
  · obtain ⟨q1, q2, q3, f', hq, ht1, -, hans, hrec⟩ := htr.wait_after hid
      (before := before ++ [info]) (between := [start]) (after := after) (m := m) (timeout := timeout) (w := w)
      (o := ind) (by rw [he]; simp)
    obtain ⟨t, f, h1, h2, h3, h4⟩ := exchange ht1
    have hq1 : q1.Sublist past := by
      rw [hq, List.append_assoc]; exact List.sublist_append_left _ _
    have both : [Entry.received f n, .received f' ind].Sublist c.api.log := by
      refine lift (L := q1 ++ q2) ?_ ?_
      · rw [hq]; exact List.sublist_append_left _ _
      · exact List.Sublist.append (l₁ := [_])
          (List.singleton_sublist.mpr (h1.subset (by simp))) (List.singleton_sublist.mpr hrec)
    exact ⟨t, f, n, s, i.api.resp.recv f n (both.subset (by simp)), h2, h3, h4, hs, lift hq1 h1,
      .inr ⟨f', ind, i.api.resp.recv f' ind (both.subset (by simp)), (hm ind).mp hans, both⟩⟩

/-- A stick that has to be set up (`startupFromApp` is needed as well). -/
example : ∃ t f n, [Entry.sent t [0xFE, 0, 0x27, 0, 0x27], .received f n].Sublist
    (Client.run exampleStart exampleSession).api.log := by
  have h := example_start (fun p => ∀ evs, Unshared evs (Client.run p evs).hist →
      (Client.run p evs).prog = .ret "reset" →
      ∃ t f n, [Entry.sent t [0xFE, 0, 0x27, 0, 0x27], .received f n].Sublist (Client.run p evs).api.log)
    (fun evs hu hr => by
      obtain ⟨t, f, n, s, -, -, -, -, -, h, -⟩ := c57_wire (by decide) evs hu hr
      exact ⟨t, f, n, h⟩)
  exact h exampleSession (Radio.alone_unshared (Radio.alone_alone session_reset.2.1))
    (Radio.done_eq session_reset.1)

/-! ## C49: what start-up writes -/

/-- C49 on the wire: as long as nobody else makes requests, everything that is written to the port is
one of the commands of start-up, whatever the radio answers. -/
theorem c49_wire {version : Int} {o : Options} (ho : WellFormed o) {g : Nat} (hg : g < 65536) {b : Bool}
    (evs : List ClientEvent) (ha : Alone evs) :
    ∀ bs ∈ writes (Client.run (startZnp version o g b) evs).api.log,
      ∃ f ∈ startFrames version o g, Gateway.send f = .ok bs := by
  intro bs hbs
  obtain ⟨past, i⟩ := client_inv (startZnp version o g b) evs
  obtain ⟨e, hm, he⟩ := List.mem_filterMap.mp hbs
  cases e with
  | sent t b' =>
    cases he
    obtain ⟨q, w, x, hsub, fr, hfr, hsend⟩ := sent_submitted i.api hm
    rcases (own_inv (startZnp version o g b) evs).own t q w x hsub with h | ⟨op, ⟨h, r, hrun⟩, hb⟩
    · exact absurd h (ha q w x)
    · have := c49_sent ho hg hrun ⟨op, r⟩ (by simp)
      exact ⟨fr, sent_frame this (builds_frame hb hfr), hsend⟩
  | _ => cases he

example : ∃ bs ∈ writes (Client.run exampleStart
      exampleSession).api.log,
    ∃ f ∈ startFrames 1 exampleOptions 0x0B84, Gateway.send f = .ok bs := by
  have h := example_start (fun p => ∀ evs, Alone evs → ∀ bs ∈ writes (Client.run p evs).api.log,
      ∃ f ∈ startFrames 1 exampleOptions 0x0B84, Gateway.send f = .ok bs)
    (fun evs ha => c49_wire example_wf (by decide) evs ha) exampleSession
    (Radio.alone_alone session_reset.2.1)
  have hlen := session_reset.2.2
  generalize writes (Client.run exampleStart exampleSession).api.log = l at h hlen
  cases l with
  | nil => cases hlen
  | cons bs l => exact ⟨bs, .head _, h bs (.head _)⟩

/-! ## C46: whose endpoints -/

/-- A message about the endpoints of a node other than the coordinator. -/
def foreignEndpoints : Frame :=
  Frame.of .AREQ .ZDO 0x85
    [0x34, 0x12, 0, 0x34, 0x12, 13, 1, 2, 3, 4, 5, 6, 8, 11, 110, 12, 13, 47, 242]

/-- C46 is false without an assumption about what arrives: the coordinator's endpoints need not be
registered when `registerEndpoints` returns. The waiter takes any ZDO_ACTIVE_EP_RSP
(start_znp.py:153); here one of node 0x1234 arrives, the only message there is, and nothing is
registered although the coordinator has not reported a single endpoint. -/
theorem c46_wire_refuted : ¬ ∀ (evs : List ClientEvent), Alone evs →
    (Client.run registerEndpoints evs).prog = .ret () →
    ∀ c ∈ coordinatorEndpoints,
      (∃ bs ∈ writes (Client.run registerEndpoints evs).api.log,
        Gateway.send (registerFrame c) = .ok bs) ∨
      (∃ f n l, .received f n ∈ (Client.run registerEndpoints evs).api.log ∧ ActiveEpRsp n ∧
        n.payload.lookup "nwkaddr" = some (.int 0) ∧
        n.payload.lookup "activeeplist" = some (.ints l) ∧ (c.1 : Int) ∈ l) := by
  intro h
  have h1 : Radio.alone [.api (.setUart true), .go, .go, .spawned, .api (.frame foreignEndpoints),
        .go, .go] = true ∧
      Radio.done () (Client.run registerEndpoints [.api (.setUart true), .go, .go, .spawned,
        .api (.frame foreignEndpoints), .go, .go]).prog = true ∧
      writes (Client.run registerEndpoints [.api (.setUart true), .go, .go, .spawned,
        .api (.frame foreignEndpoints), .go, .go]).api.log = [[0xFE, 4, 0x25, 5, 0, 0, 0, 0, 0x24]] ∧
      (Client.run registerEndpoints [.api (.setUart true), .go, .go, .spawned,
        .api (.frame foreignEndpoints), .go, .go]).api.log.all (fun
          | .received _ n => n.payload.lookup "nwkaddr" != some (.int 0)
          | _ => true) = true := by decide +kernel
  obtain ⟨ha, hd, hw, hr⟩ := h1
  rcases h _ (Radio.alone_alone ha) (Radio.done_eq hd) (1, 0x0104, 5, [], []) (by decide) with
    ⟨bs, hbs, hsend⟩ | ⟨f, n, l, hrec, -, hn, -⟩
  · rw [hw, List.mem_singleton] at hbs
    subst hbs
    revert hsend
    decide +kernel
  · have := List.all_eq_true.mp hr _ hrec
    simp only [hn] at this
    revert this
    decide

end Zcc
