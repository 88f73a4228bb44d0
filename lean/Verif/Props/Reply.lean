import Verif.Proofs.Reply
import Verif.Props.App
import Verif.Props.Requests

/-!
# A request and its reply, end to end: C64

`es₁` is what happened before the request, `es₂` what happens between the request and the reply: any
other calls, frames, time-outs, cancellations, restarts.
-/

namespace Zcc
open Spec

theorem reply_request_dec : ∀ r ∈ zdoReplies, ∀ c ∈ defZDO, c.id + 0x80 = r.1 →
    c.type = .SREQ ∧ c.name ∉ undirected ∧
    c.name = String.ofList (c.name.toList.take (c.name.toList.length - 3) ++ ['R', 'e', 'q']) ∧
    r.2.1 = String.ofList (c.name.toList.take (c.name.toList.length - 3) ++ ['R', 's', 'p']) ∧
    ∃ d ∈ defZDO, d.name = r.2.1 := by
  decide +kernel

theorem reply_name_dec : ∀ r ∈ zdoReplies, ∀ c ∈ defZDO, c.name = r.2.1 →
    c.id = r.1 ∧ c.request.head? = some ("srcaddr", .UINT16) := by
  decide +kernel

/-- The waiter of a request with a handled reply. -/
theorem reply_waiter {nwk profile cluster srcEp dstEp sequence radius : Int} {data : List UInt8}
    {addrMode : Option Int} (hp : profile ≠ 260) {o : Obj}
    (h : Obj.fromCluster nwk profile cluster srcEp dstEp sequence data radius addrMode = .ok o)
    {r : Nat × String × Nat} (hr : r ∈ zdoReplies) (hc : cluster + 0x80 = r.1) (q : Option Int) :
    responseWaiter o q = .ok (some (⟨.AREQ, .ZDO, r.2.1, [("srcaddr", .int nwk)]⟩, q)) := by
  obtain ⟨c, payload, hct, hid, -, -, ho⟩ := fromCluster_zdo_ok hp h
  obtain ⟨cs, hcs, hmem⟩ := id hct
  have : cs = defZDO := by simpa [definition] using hcs.symm
  subst this
  obtain ⟨h1, h2, h3, h4, d, hd, h5⟩ := reply_request_dec r hr c hmem (by omega)
  have := (zdo_responseWaiter hp h (by rw [ho]; exact h1)
    (c.name.toList.take (c.name.toList.length - 3)) (by rw [ho]; exact h3)
    ⟨d, ⟨defZDO, hcs, hd⟩, h5.trans h4⟩ q).1 (by rw [ho]; exact h2)
  rw [this, ← h4]

/-- Only a frame that is the reply answers its waiter. -/
theorem answers_replyFrom {r : Nat × String × Nat} (hr : r ∈ zdoReplies) {nwk : UInt16} {f : Frame}
    {o : Obj} (hf : Obj.fromUnpiFrame f = .ok o)
    (h : Answers ⟨.AREQ, .ZDO, r.2.1, [("srcaddr", .int nwk.toNat)]⟩ o) : ReplyFrom r.1 nwk f := by
  obtain ⟨h1, h2, h3, h4⟩ := h
  have h4 : o.payload.lookup "srcaddr" = some (.int nwk.toNat) := h4 _ (.head _)
  obtain ⟨c, hc, hcid, hp, hrd, hobj⟩ := fromUnpiFrame_ok hf
  have ht : f.commandType = .AREQ := by rw [hobj] at h1; exact h1.symm
  have hs : f.subsystem = .ZDO := by rw [hobj] at h2; exact h2.symm
  have hn : c.name = r.2.1 := by rw [hobj] at h3; exact h3.symm
  have hnd := (table_params hc).1
  rw [hs] at hc
  obtain ⟨cs, hcs, hcm⟩ := id hc
  have : cs = defZDO := by simpa [definition] using hcs.symm
  subst this
  obtain ⟨g1, g2⟩ := reply_name_dec r hr c hcm hn
  have hpar : o.parameters = c.request := by
    unfold ParamsOf at hp
    rw [if_neg (by rw [ht]; decide)] at hp
    exact hp.symm
  rw [hpar] at hrd
  refine ⟨ht, hs, hcid.symm.trans g1, ?_⟩
  rcases hreq : c.request with _ | ⟨p, ps⟩
  · rw [hreq] at g2; cases g2
  · rw [hreq] at g2 hrd hnd
    simp at g2
    subst g2
    have hread : ∃ v rest, readInt 2 f.data = .ok (v, rest) := by
      rcases hi : readInt 2 f.data with e | ⟨v, rest⟩
      · rw [readParameters_eq _ hnd, readVals, rp_uint "srcaddr" _ .UINT16 2 (.inl ⟨rfl, rfl⟩)] at hrd
        simp only [bindR, hi] at hrd
        cases hrd
      · exact ⟨v, rest, rfl⟩
    obtain ⟨v, body, hv⟩ := hread
    obtain ⟨hlt, hdat⟩ := readInt_ok hv
    refine ⟨body, ?_⟩
    rw [hdat] at hrd
    have := read_first16 hnd (by simpa using hlt) hrd
    rw [h4] at this
    have : nwk.toNat = v := by
      have := Option.some.inj this
      injection this with this
      exact Int.ofNat.inj this
    rw [hdat, this]; rfl

/-- The waiter of the request is the one that gives the reply its number. -/
theorem reply_tagged (es₁ es₂ : List AppEvent) (s₀ s : AppSys) (nwk : UInt16)
    (c : Call) (q : Nat) (o : Obj) (f : Frame) (rsp : Obj) (r : Nat × String × Nat) (a : App)
    (h₀ : s₀ = AppSys.init.run es₁) (hs : s = AppSys.init.run (es₁ ++ .call c :: es₂))
    (ho : c.obj = .ok o) (hw : c.wantsReply = some (q : Int))
    (hrw : responseWaiter o (some (q : Int)) =
      .ok (some (⟨.AREQ, .ZDO, r.2.1, [("srcaddr", .int nwk.toNat)]⟩, some (q : Int))))
    (hr : r ∈ zdoReplies) (hq : 1 ≤ q ∧ q ≤ 255)
    (hf : ReplyFrom r.1 nwk f) (hrsp : Obj.fromUnpiFrame f = .ok rsp)
    (hstart : ∀ j m to x, .api j (.register m to x) ∈ es₁ ++ es₂ → StartupMatcher m)
    (hold : ∀ k ∈ s₀.tasks, ∀ o j w, k.pc = .waiting o (some (j, w)) → j = s₀.cur)
    (hused : ∀ t o x, .submitted t o (some (s₀.api s₀.cur).waiterId) x ∉ (s₀.api s₀.cur).log)
    (hfirst : ∀ x ∈ (s₀.api s₀.cur).waiters, ¬ Answers x.matcher rsp)
    (hpriv : ∀ e, .api s₀.cur e ∈ es₂ → e ≠ .abandon (s₀.api s₀.cur).waiterId ∧
      ∀ o x, e ≠ .submit o (some (s₀.api s₀.cur).waiterId) x)
    (hnone : ∀ f', .api s₀.cur (.frame f') ∈ es₂ → ¬ ReplyFrom r.1 nwk f')
    (hacc : ∀ z, Answered s s₀.tasks.length o z → z = 0)
    (htime : (s.api s₀.cur).now < (s₀.api s₀.cur).now + 10100) :
    (receive (s.api s₀.cur) a f).2 = a.handleZnp { rsp with sequence := some (q : Int) } ∧
    ∀ x ∈ (receive (s.api s₀.cur) a f).1.waiters, x.id ≠ (s₀.api s₀.cur).waiterId := by
  have ha : AInv s₀ := h₀ ▸ ainv_run es₁
  obtain ⟨hinv, hreg⟩ := reply_begin ha (c := c) (o := o) (q := q) ho hw hrw hold hused
  have hrun : s = (s₀.step (.call c)).run es₂ := by
    rw [hs, app_run_append, ← h₀]; rfl
  have hG : Grows (s₀.api s₀.cur) (s.api s₀.cur) := by
    have := app_grows_run s₀.cur (.call c :: es₂) s₀
    rw [hrun]; exact this
  have hsi : AInv s := hs ▸ ainv_run _
  have hfin := reply_run (x := ⟨(s₀.api s₀.cur).waiterId, _, 10000, some (q : Int)⟩) rfl es₂ _
    (ha.step _) hinv hreg (by
      intro ev hev
      match ev, hev with
      | .api j e, hev =>
        intro hj
        subst hj
        refine ⟨(hpriv e hev).1, (hpriv e hev).2, fun f' o' he ho' hans => ?_⟩
        subst he
        exact hnone f' hev (answers_replyFrom hr ho' hans)
      | .call _, _ | .enter _, _ | .wakeUp _, _ | .cancel _, _ | .newApi, _ | .newSemaphore _, _ =>
        exact True.intro)
  rw [← hrun] at hfin
  have hlog : .registered ⟨(s₀.api s₀.cur).waiterId, ⟨.AREQ, .ZDO, r.2.1, [("srcaddr", .int nwk.toNat)]⟩,
      10000, some (q : Int)⟩ (s₀.api s₀.cur).now ∈ (s.api s₀.cur).log := by
    rw [hrun]
    exact (app_grows_run s₀.cur es₂ _).log.subset hreg
  have hpend : (s.api s₀.cur).fut (s₀.api s₀.cur).waiterId = .pending := by
    rcases hfin.fut with h | ⟨k, t, z, h1, h2, h3⟩
    · exact h
    · exfalso
      obtain ⟨o', ho', hans, hz⟩ := refused_of hsi h1 h2 h3
      have hcall : k.call = c := by
        obtain ⟨k0, b1, b2⟩ := begin_call s₀ c
        obtain ⟨k1, b3, b4, -⟩ := app_moves_run es₂ _ (ha.step _) _ k0 b1
        rw [← hrun, h1] at b3
        cases b3
        exact b4.trans b2
      rw [hcall, ho] at ho'
      cases ho'
      exact hz (hacc z hans)
  obtain ⟨E, hE, hEreg⟩ := app_proj_from s₀.cur
    (es₁ ++ .call c :: es₂) AppSys.init
  rw [← hs] at hE
  have hE : s.api s₀.cur = Api.init.run E := hE
  have hsw : StartupWaiters E := by
    intro m to x hx
    have := hEreg m to x hx
    refine hstart s₀.cur m to x ?_
    rcases List.mem_append.mp this with h | h
    · exact List.mem_append_left _ h
    · rcases List.mem_cons.mp h with h | h
      · cases h
      · exact List.mem_append_right _ h
  have hmem : (⟨(s₀.api s₀.cur).waiterId, ⟨.AREQ, .ZDO, r.2.1, [("srcaddr", .int nwk.toNat)]⟩,
      10000, some (q : Int)⟩ : Waiter) ∈ (s.api s₀.cur).waiters := by
    rw [hE] at hlog hpend htime ⊢
    exact c23_stays E _ _ hlog hpend (by show _ < _ + 10000 + 100; omega)
  obtain ⟨pre, post, hW⟩ := List.append_of_mem hmem
  have hids := (hsi.api s₀.cur).wait.ids
  rw [hW, List.map_append, List.map_cons, List.pairwise_append] at hids
  obtain ⟨-, hids2, hids3⟩ := hids
  have hlt : ∀ x ∈ pre, x.id < (s₀.api s₀.cur).waiterId := fun x hx =>
    hids3 _ (List.mem_map_of_mem hx) _ (.head _)
  have hgt : ∀ x ∈ post, (s₀.api s₀.cur).waiterId < x.id := fun x hx =>
    (List.pairwise_cons.mp hids2).1 _ (List.mem_map_of_mem hx)
  have hans : Answers ⟨.AREQ, .ZDO, r.2.1, [("srcaddr", .int nwk.toNat)]⟩ rsp := by
    obtain ⟨f1, f2, f3, body, f4⟩ := hf
    obtain ⟨p1, p2, p3, p4, -⟩ := reply_parts hr f1 f2 f3 hrsp f4
    refine ⟨p1.symm, p2.symm, p3.symm, fun p hp => ?_⟩
    rw [List.mem_singleton] at hp
    subst hp
    exact p4
  rw [hE] at hW ⊢
  obtain ⟨g1, g2⟩ := receive_tagged E hsw a f rsp hrsp pre post _ hW (fun x hx => by
    rcases hG.tab x (by rw [hE, hW]; exact List.mem_append_left _ hx) with h | h
    · exact hfirst x h
    · exact absurd (hlt x hx) (Nat.not_lt.mpr h)) hans q rfl hq
  refine ⟨g1, ?_⟩
  rw [g2]
  intro x hx
  rcases List.mem_append.mp hx with h | h
  · exact Nat.ne_of_lt (hlt x h)
  · exact Nat.ne_of_gt (hgt x h)

/-- **C64.** A ZDO request (of `request`, or of `mrequest` to one node) to the node `nwk` with transaction number
`q`, 1..255. If the node's reply
arrives less than 10.1 s later, zigpy gets it exactly once: the number `q` and the body of the reply
(without trailing bytes that do not belong to it), and nobody waits for it any more. Provided that it is the first such reply since the request (`hnone`), nobody waited for one
when the request was made (`hfirst`), the radio did not refuse the request (`hacc`), nobody else uses
the id of the waiter (`hpriv`), and no call from before a restart brings the id of our waiter: none
was still waiting for its turn (`hold`, see `c64_stale_refuted`), and none already had it
(`hused`, see `c64_in_flight_refuted`). -/
theorem c64_reply (es₁ es₂ : List AppEvent) (s₀ s : AppSys) (nwk : UInt16)
    (c : Call) (profile cluster srcEp : Int) (q : Nat) (data : List UInt8) (o : Obj) (f : Frame) (rsp : Obj)
    (r : Nat × String × Nat) (a : App) (d : Device)
    (h₀ : s₀ = AppSys.init.run es₁)
    (hs : s = AppSys.init.run (es₁ ++ .call c :: es₂))
    (hcall : (∃ dstEp, c = .request nwk.toNat profile cluster srcEp dstEp q data true) ∨
      ∃ hops, c = .mrequest nwk.toNat profile cluster srcEp q data hops)
    (hp : profile ≠ 260) (ho : c.obj = .ok o)
    (hr : r ∈ zdoReplies) (hc : cluster + 0x80 = r.1) (hq : 1 ≤ q ∧ q ≤ 255)
    (hf : ReplyFrom r.1 nwk f) (hrsp : Obj.fromUnpiFrame f = .ok rsp) (hlqi : r.2.1 ≠ "mgmtLqiRsp")
    (hprod : a.product ≠ none) (hd : FirstWithNwk a.devices nwk.toNat d)
    (hstart : ∀ j m to x, .api j (.register m to x) ∈ es₁ ++ es₂ → StartupMatcher m)
    (hold : ∀ k ∈ s₀.tasks, ∀ o j w, k.pc = .waiting o (some (j, w)) → j = s₀.cur)
    (hused : ∀ t o x, .submitted t o (some (s₀.api s₀.cur).waiterId) x ∉ (s₀.api s₀.cur).log)
    (hfirst : ∀ x ∈ (s₀.api s₀.cur).waiters, ¬ Answers x.matcher rsp)
    (hpriv : ∀ e, .api s₀.cur e ∈ es₂ → e ≠ .abandon (s₀.api s₀.cur).waiterId ∧
      ∀ o x, e ≠ .submit o (some (s₀.api s₀.cur).waiterId) x)
    (hnone : ∀ f', .api s₀.cur (.frame f') ∈ es₂ → ¬ ReplyFrom r.1 nwk f')
    (hacc : ∀ z, Answered s s₀.tasks.length o z → z = 0)
    (htime : (s.api s₀.cur).now < (s₀.api s₀.cur).now + 10100) :
    (∃ b rest, f.data = le16 nwk.toNat ++ b ++ rest ∧ ReplyBody r.1 b ∧
      (receive (s.api s₀.cur) a f).2 =
        ⟨a, ledFor a r.2.1 ++ handOver d 0 r.2.2 0 0 (UInt8.ofNat q :: b), none⟩) ∧
    ∀ x ∈ (receive (s.api s₀.cur) a f).1.waiters, x.id ≠ (s₀.api s₀.cur).waiterId := by
  obtain ⟨h1, h2⟩ := reply_tagged es₁ es₂ s₀ s nwk c q o f rsp r a h₀ hs ho
    (by rcases hcall with ⟨_, h⟩ | ⟨_, h⟩ <;> rw [h] <;> rfl)
    (by
      rcases hcall with ⟨_, h⟩ | ⟨_, h⟩ <;> rw [h] at ho <;> exact reply_waiter hp ho hr hc _) hr hq hf hrsp hstart hold hused hfirst hpriv hnone hacc htime
  obtain ⟨f1, f2, f3, body, f4⟩ := hf
  obtain ⟨b, rest, g1, g2, g3, -⟩ := c34_reply_partial a hprod f rsp r hr hlqi f1 f2 f3 hrsp nwk body f4 q
    (by omega)
  exact ⟨⟨b, rest, by rw [f4, g1, List.append_assoc], g2, h1.trans (g3 d hd)⟩, h2⟩

/-- **C64** for neighbour lists: the same, except that the reserved bits of each entry arrive
cleared. -/
theorem c64_neighbors (es₁ es₂ : List AppEvent) (s₀ s : AppSys) (nwk : UInt16)
    (profile srcEp dstEp : Int) (q : Nat) (data : List UInt8) (o : Obj) (f : Frame) (rsp : Obj)
    (a : App) (d : Device)
    (h₀ : s₀ = AppSys.init.run es₁)
    (hs : s = AppSys.init.run
      (es₁ ++ .call (.request nwk.toNat profile 0x31 srcEp dstEp q data true) :: es₂))
    (hp : profile ≠ 260)
    (ho : Obj.fromCluster nwk.toNat profile 0x31 srcEp dstEp q data = .ok o) (hq : 1 ≤ q ∧ q ≤ 255)
    (hf : ReplyFrom 0xB1 nwk f) (hrsp : Obj.fromUnpiFrame f = .ok rsp)
    (hprod : a.product ≠ none) (hd : FirstWithNwk a.devices nwk.toNat d)
    (hstart : ∀ j m to x, .api j (.register m to x) ∈ es₁ ++ es₂ → StartupMatcher m)
    (hold : ∀ k ∈ s₀.tasks, ∀ o j w, k.pc = .waiting o (some (j, w)) → j = s₀.cur)
    (hused : ∀ t o x, .submitted t o (some (s₀.api s₀.cur).waiterId) x ∉ (s₀.api s₀.cur).log)
    (hfirst : ∀ x ∈ (s₀.api s₀.cur).waiters, ¬ Answers x.matcher rsp)
    (hpriv : ∀ e, .api s₀.cur e ∈ es₂ → e ≠ .abandon (s₀.api s₀.cur).waiterId ∧
      ∀ o x, e ≠ .submit o (some (s₀.api s₀.cur).waiterId) x)
    (hnone : ∀ f', .api s₀.cur (.frame f') ∈ es₂ → ¬ ReplyFrom 0xB1 nwk f')
    (hacc : ∀ z, Answered s s₀.tasks.length o z → z = 0)
    (htime : (s.api s₀.cur).now < (s₀.api s₀.cur).now + 10100) :
    (∃ (head : List UInt8) (entries : List (List UInt8)) (rest : List UInt8), head.length = 4 ∧
      (∀ e ∈ entries, e.length = 22) ∧
      f.data = le16 nwk.toNat ++ head ++ entries.flatten ++ rest ∧
      ReplyBody 0xB1 (head ++ entries.flatten) ∧
      (receive (s.api s₀.cur) a f).2 = ⟨a, handOver d 0 0x8031 0 0
        (UInt8.ofNat q :: (head ++ (entries.map maskEntry).flatten)), none⟩) ∧
    ∀ x ∈ (receive (s.api s₀.cur) a f).1.waiters, x.id ≠ (s₀.api s₀.cur).waiterId := by
  obtain ⟨h1, h2⟩ := reply_tagged es₁ es₂ s₀ s nwk _ q o f rsp (0xB1, "mgmtLqiRsp", 0x8031) a h₀ hs ho rfl
    (reply_waiter hp ho (r := (0xB1, "mgmtLqiRsp", 0x8031)) (by decide) rfl _) (by decide) hq hf hrsp hstart hold hused hfirst hpriv hnone hacc htime
  obtain ⟨f1, f2, f3, body, f4⟩ := hf
  obtain ⟨head, entries, rest, g1, g2, g3, gb, g4, -⟩ := c34_neighbors a hprod f rsp f1 f2 f3 hrsp nwk body f4 q
    (by omega)
  refine ⟨⟨head, entries, rest, g1, g2, ?_, gb, h1.trans (g4 d hd)⟩, h2⟩
  rw [f4, g3]; simp

/-! ### Examples -/

/-- Node descriptor of 0x1234 with transaction number 7. -/
def exAsk : Call := .request 0x1234 0 2 0 0 7 [7, 0x34, 0x12] true

/-- Two of the coordinator's earlier calls, one still waiting for its turn. -/
def exBefore : List AppEvent :=
  [.newApi, .newSemaphore 0, .call (.request 0x1111 0 2 0 0 6 [6, 0x11, 0x11] true), .call exToggle,
   .enter 0, .api 1 (.tick 500)]

/-- The radio accepts the requests, another node replies, a message arrives, 10 s pass. -/
def exBetween : List AppEvent :=
  [.api 1 (.frame (Frame.of .SRSP .ZDO 2 [0])), .api 1 (.wake 0), .enter 2,
   .api 1 (.frame (Frame.of .SRSP .ZDO 2 [0])), .api 1 (.frame (exMessage.frame [])), .api 1 (.wake 1),
   .call exToggle, .api 1 (.frame (Frame.of .AREQ .ZDO 0x82
    [0x11, 0x11, 0, 0x11, 0x11, 1, 0x40, 0x8E, 0x5F, 0x11, 80, 160, 0, 0, 0, 160, 0, 0])), .cancel 1,
   .api 1 (.tick 10000)]

/-- The descriptor: no error, 0x1234, 13 bytes. -/
def exAnswer : Frame :=
  Frame.of .AREQ .ZDO 0x82 [0x34, 0x12, 0, 0x34, 0x12, 1, 0x40, 0x8E, 0x5F, 0x11, 80, 160, 0, 0, 0, 160, 0, 0]

/-- What the radio answered to a call, for the examples: all statuses received on its API. -/
def statusesOf (s : AppSys) (n : Nat) : List (Option Val) :=
  match s.tasks[n]?.bind (·.ran) with
  | some (i, _) => (s.api i).log.filterMap fun
    | .received _ rsp => if rsp.commandType = .SRSP then some (rsp.payload.lookup "status") else none
    | _ => none
  | none => []

theorem answered_statuses {s : AppSys} {n : Nat} {o : Obj} {z : Int} (h : Answered s n o z) :
    some (.int z) ∈ statusesOf s n := by
  obtain ⟨k, i, t, b, f, rsp, h1, h2, -, h4, h5, h6⟩ := h
  unfold statusesOf
  rw [h1, Option.bind_some, h2]
  refine List.mem_filterMap.mpr ⟨.received f rsp, h6.subset (by simp), ?_⟩
  dsimp only
  rw [if_pos h4.1, h5]

theorem replyFrom_bytes {id : Nat} {nwk : UInt16} {f : Frame} (h : ReplyFrom id nwk f) :
    f.commandId = id ∧ f.data.take 2 = le16 nwk.toNat := by
  obtain ⟨-, -, h3, body, h4⟩ := h
  refine ⟨h3, ?_⟩
  rw [h4]; rfl

/-- The hypotheses of `c64_reply` hold for this execution. -/
example : ∃ o rsp, Obj.fromCluster (0x1234 : UInt16).toNat 0 2 0 0 7 [7, 0x34, 0x12] = .ok o ∧
    Obj.fromUnpiFrame exAnswer = .ok rsp ∧ ReplyFrom 0x82 0x1234 exAnswer ∧
    (AppSys.init.run exBefore).cur = 1 ∧ (AppSys.init.run exBefore).tasks.length = 2 ∧
    (∀ k ∈ (AppSys.init.run exBefore).tasks, ∀ o j w, k.pc = .waiting o (some (j, w)) → j = 1) ∧
    (∀ t o x, .submitted t o (some ((AppSys.init.run exBefore).api 1).waiterId) x ∉
      ((AppSys.init.run exBefore).api 1).log) ∧
    (∀ x ∈ ((AppSys.init.run exBefore).api 1).waiters, ¬ Answers x.matcher rsp) ∧
    ((AppSys.init.run exBefore).api 1).waiters.length = 3 ∧
    (∀ f', .api 1 (.frame f') ∈ exBetween → ¬ ReplyFrom 0x82 0x1234 f') ∧
    (∀ z, Answered (AppSys.init.run (exBefore ++ .call exAsk :: exBetween)) 2 o z → z = 0) ∧
    ((AppSys.init.run (exBefore ++ .call exAsk :: exBetween)).api 1).now = 10500 ∧
    ((AppSys.init.run exBefore).api 1).now = 500 := by
  have key : (match Obj.fromCluster (0x1234 : UInt16).toNat 0 2 0 0 7 [7, 0x34, 0x12],
      Obj.fromUnpiFrame exAnswer with
    | .ok _, .ok rsp => decide (∀ x ∈ ((AppSys.init.run exBefore).api 1).waiters, ¬ Answers x.matcher rsp)
    | _, _ => false) = true := by decide +kernel
  have hw : (AppSys.init.run exBefore).tasks.all (fun k => match k.pc with
      | .waiting _ (some (j, _)) => j == 1
      | _ => true) = true := by decide +kernel
  have hst : statusesOf (AppSys.init.run (exBefore ++ .call exAsk :: exBetween)) 2 =
    [some (.int 0), some (.int 0)] := by decide +kernel
  rcases h1 : Obj.fromCluster (0x1234 : UInt16).toNat 0 2 0 0 7 [7, 0x34, 0x12] with e | o
  · rw [h1] at key; cases key
  rcases h2 : Obj.fromUnpiFrame exAnswer with e | rsp
  · rw [h1, h2] at key; cases key
  rw [h1, h2] at key
  refine ⟨o, rsp, rfl, rfl, ⟨rfl, rfl, rfl, exAnswer.data.drop 2, by decide +kernel⟩, by decide +kernel,
    by decide +kernel, ?_, ?_, of_decide_eq_true key, by decide +kernel, ?_, ?_, by decide +kernel,
    by decide +kernel⟩
  · intro k hk o j w hpc
    have := List.all_eq_true.mp hw k hk
    rw [hpc] at this
    exact of_decide_eq_true this
  · intro t o x hm
    have hall : ((AppSys.init.run exBefore).api 1).log.all (fun ev => match ev with
        | .submitted _ _ (some w) _ => w != ((AppSys.init.run exBefore).api 1).waiterId
        | _ => true) = true := by decide +kernel
    have := List.all_eq_true.mp hall _ hm
    dsimp only at this
    rw [bne_self_eq_false] at this
    cases this
  · intro f' hf' hr
    obtain ⟨g1, g2⟩ := replyFrom_bytes hr
    have hall : exBetween.all (fun ev => match ev with
        | .api _ (.frame f) => !decide (f.commandId = 0x82 ∧ f.data.take 2 = le16 0x1234)
        | _ => true) = true := by decide +kernel
    have := List.all_eq_true.mp hall _ hf'
    have h : decide (f'.commandId = 0x82 ∧ f'.data.take 2 = le16 0x1234) = true :=
      decide_eq_true ⟨g1, g2⟩
    dsimp only at this
    rw [h] at this
    cases this
  · intro z hz
    have := answered_statuses hz
    rw [hst] at this
    simpa using this

/-- The reply as zigpy gets it. -/
example : (receive ((AppSys.init.run (exBefore ++ .call exAsk :: exBetween)).api 1) exApp exAnswer).2.effects =
    handOver ⟨[2, 2, 2, 2, 2, 2, 2, 2], 0x1234⟩ 0 0x8002 0 0
      [7, 0, 0x34, 0x12, 1, 0x40, 0x8E, 0x5F, 0x11, 80, 160, 0, 0, 0, 160, 0, 0] := by decide +kernel

/-- A call of the first connection waits for its turn, the application starts again. -/
def exStale : List AppEvent :=
  [.newApi, .newSemaphore 0, .call (.request 0x1111 0 2 0 0 6 [6, 0x11, 0x11] true), .newApi,
   .newSemaphore 0]

/-- The old call is refused, ours is accepted. -/
def exStaleRefused : List AppEvent :=
  [.enter 0, .api 2 (.frame (Frame.of .SRSP .ZDO 2 [1])), .api 2 (.wake 0), .enter 1,
   .api 2 (.frame (Frame.of .SRSP .ZDO 2 [0])), .api 2 (.wake 1)]

/-- **C64 (refuted without `hold`).** A call from before a restart gets its turn after it, with a
waiter id of the old connection, which now is the id of our waiter. When it is refused, our waiter is
dropped. Our request is accepted, but the reply is not handed to zigpy. -/
theorem c64_stale_refuted :
    EndedWith (AppSys.init.run (exStale ++ .call exAsk :: exStaleRefused)) 1
      (.returned 0 "message send success") ∧
    ((AppSys.init.run (exStale ++ .call exAsk :: exStaleRefused)).api 2).now = 0 ∧
    (receive ((AppSys.init.run (exStale ++ .call exAsk :: exStaleRefused)).api 2) exApp exAnswer).2 =
      ⟨exApp, [], none⟩ :=
  ⟨endedWith_iff.mpr (by decide +kernel), by decide +kernel, by decide +kernel⟩

/-- The same, but the old call is already on its way, before our call is made. The first connection
gave out one id more than the second has so far. -/
def exInFlight : List AppEvent :=
  [.newApi, .newSemaphore 0, .call (.request 0x1111 0 2 0 0 5 [5, 0x11, 0x11] true),
   .call (.request 0x1111 0 2 0 0 6 [6, 0x11, 0x11] true), .cancel 0, .newApi, .newSemaphore 0, .enter 1]

/-- Our call is made, then the old one is refused. -/
def exInFlightRefused : List AppEvent :=
  [.api 2 (.frame (Frame.of .SRSP .ZDO 2 [1])), .api 2 (.wake 0), .enter 2,
   .api 2 (.frame (Frame.of .SRSP .ZDO 2 [0])), .api 2 (.wake 1)]

/-- **C64 (refuted without `hused`).** No call waits for its turn when ours is made (`hold` holds), but
one that was made before the restart is on its way and brought the id that our waiter will get. When
it is refused, our waiter is dropped, and the reply is not handed to zigpy. -/
theorem c64_in_flight_refuted :
    (AppSys.init.run exInFlight).tasks.all (fun k => match k.pc with
      | .waiting _ _ => false
      | _ => true) = true ∧
    EndedWith (AppSys.init.run (exInFlight ++ .call exAsk :: exInFlightRefused)) 2
      (.returned 0 "message send success") ∧
    ((AppSys.init.run (exInFlight ++ .call exAsk :: exInFlightRefused)).api 2).now = 0 ∧
    (receive ((AppSys.init.run (exInFlight ++ .call exAsk :: exInFlightRefused)).api 2) exApp exAnswer).2 =
      ⟨exApp, [], none⟩ :=
  ⟨by decide +kernel, endedWith_iff.mpr (by decide +kernel), by decide +kernel, by decide +kernel⟩

end Zcc
