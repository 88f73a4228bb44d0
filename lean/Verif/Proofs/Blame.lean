import Verif.Spec.Blame
import Verif.Proofs.ClientEnds
import Verif.Proofs.ClientLimit
import Verif.Proofs.Bounded
import Verif.Proofs.AppRuntime
import Verif.Props.Timely

/-!
# Why the operations of a coroutine fail
-/

namespace Zcc

open Spec

/-- The waiters that the coroutine makes are like those of start-up. -/
def Modest {α : Type} (p : Prog α) : Prop :=
  Only (fun op => ∀ m timeout, op = .waitFor m timeout → StartupMatcher m) p

/-- Others register waiters only through requests, `create_response_waiter` and like start-up. -/
def Polite (evs : List ClientEvent) : Prop :=
  ∀ m timeout q, ClientEvent.api (.register m timeout q) ∈ evs → StartupMatcher m ∧ q = none

theorem Polite.left {a b : List ClientEvent} (h : Polite (a ++ b)) : Polite a :=
  fun m timeout q hm => h m timeout q (List.mem_append_left _ hm)

theorem hist_runs {α : Type} (p : Prog α) (evs : List ClientEvent) : Runs p (Client.run p evs).hist := by
  obtain ⟨past, i⟩ := client_inv p evs
  exact ⟨_, i.fed⟩

/-- The waiters of an execution. -/
theorem client_plain {α : Type} {p : Prog α} (hm : Modest p) {evs : List ClientEvent} (hr : Polite evs) :
    ∃ es, (Client.run p evs).api = Api.init.run es ∧
      RegsSat (fun m q => (∀ f r, Obj.fromUnpiFrame f = .ok r → Comparable m r) ∧
        (q ≠ none → m.commandType = .AREQ ∧ m.subsystem = .ZDO)) (Client.run p evs).api.log := by
  obtain ⟨es, he, hreg⟩ := client_registers p evs
  refine ⟨es, he, ?_⟩
  rw [he]
  refine waiters_plain es fun m timeout q h => ?_
  rcases hreg m timeout q h with h | ⟨hq, w, h⟩
  · exact hr m timeout q h
  · exact ⟨hm _ (hist_runs p evs) _ h m timeout rfl, hq⟩

/-- A message that comes in time is not lost. -/
theorem client_heard {α : Type} {p : Prog α} (hm : Modest p) {evs : List ClientEvent} (hr : Polite evs)
    {x : Waiter} {time : Nat} (hx : .registered x time ∈ (Client.run p evs).api.log)
    (hf : (Client.run p evs).api.fut x.id = .pending)
    (ht : (Client.run p evs).api.now < time + x.timeout) {f : Frame} {o : Obj}
    (hd : Obj.fromUnpiFrame f = .ok o) (ha : Answers x.matcher o)
    (hq : ∀ y ∈ (Client.run p evs).api.waiters, Answers y.matcher o → y.sequence = none) :
    (Client.run p (evs ++ [.api (.frame f)])).api.fut x.id = .result o := by
  obtain ⟨es, he, hs⟩ := client_plain hm hr
  rw [client_snoc]
  show ((Client.run p evs).api.step (.frame f)).fut x.id = _
  rw [he] at hx hf ht hs hq ⊢
  have i := inv_run es
  have hin := c23_stays es x time hx hf (by omega)
  have hreach := matchLoop_reaches o (Api.init.run es).waiters
    { Api.init.run es with log := (Api.init.run es).log ++ [.received f o] }
    (fun y hy => by
      obtain ⟨time, h, _⟩ := i.wait.regW y hy
      exact (hs y time h).1 f o hd)
    hq x hin ha hf
  rw [Api.step]
  unfold Api.dataReceived
  rw [hd]
  dsimp only
  split
  · rename_i heq; rw [heq] at hreach; exact hreach
  · rename_i heq; rw [heq] at hreach; exact hreach

/-- A waiter without a result did not get a message in time, unless others took it. -/
theorem client_silent {α : Type} {p : Prog α} (hm : Modest p) {a : List ClientEvent} (hr : Polite a)
    {x : Waiter} {time : Nat} (hf : (Client.run p a).api.fut x.id = .pending)
    {a' b' : List ClientEvent} {f : Frame} {o : Obj} (ha : a = a' ++ .api (.frame f) :: b')
    (hx : .registered x time ∈ (Client.run p a').api.log)
    (ht : (Client.run p a').api.now < time + x.timeout)
    (hd : Obj.fromUnpiFrame f = .ok o) (hans : Answers x.matcher o) :
    ∃ y ∈ (Client.run p a').api.waiters, y.sequence ≠ none ∧ Answers y.matcher o := by
  apply Classical.byContradiction
  intro hn
  have ha2 : a = (a' ++ [.api (.frame f)]) ++ b' := by rw [ha]; simp
  have hf' : (Client.run p a').api.fut x.id = .pending := by
    apply Classical.byContradiction
    intro h
    rw [ha, client_fut p a' h] at hf
    exact h hf
  have h1 := client_heard hm (Polite.left (ha ▸ hr)) hx hf' ht hd hans fun y hy hans' =>
    Classical.byContradiction fun hq => hn ⟨y, hy, hq, hans'⟩
  have h2 := client_fut p (a' ++ [.api (.frame f)]) (w := x.id) (by rw [h1]; intro h; cases h) b'
  rw [← ha2, hf, h1] at h2
  cases h2

/-! ### Calls -/

/-- The coroutine wrote the request `o` to the port, and the time limit went by without the message
that the request waits for. -/
def NoReply {α : Type} (p : Prog α) (evs : List ClientEvent) (o : Obj) : Prop :=
  ∃ a b t x time bytes, evs = a ++ b ∧ (Client.run p a).pend = .call t ∧ WrittenAs o bytes ∧
    [Entry.registered x time, .sent t bytes] <:+: (Client.run p a).api.log ∧
    time + limit o ≤ (Client.run p a).api.now ∧
    ∀ a' f b' rsp, a = a' ++ .api (.frame f) :: b' →
      .registered x time ∈ (Client.run p a').api.log →
      (Client.run p a').api.now < time + limit o → Obj.fromUnpiFrame f = .ok rsp →
      ¬ AwaitedBy o rsp

/-- Why the call of the coroutine's request ended with an exception. -/
inductive CallCause {α : Type} (p : Prog α) (evs : List ClientEvent) (o : Obj) : PyErr → Prop where
  | closed (h : PortLost p evs) : CallCause p evs o .attributeError
  | cancelled (h : Interrupted p evs) : CallCause p evs o .cancelledError
  | unanswered (h : NoReply p evs o) : CallCause p evs o .timeoutError
  | refused {z} : CallCause p evs o (.commandError z)
  | lost : CallCause p evs o (.keyError "waiter")

theorem PortLost.more {α : Type} {p : Prog α} {evs : List ClientEvent} (h : PortLost p evs)
    (evs' : List ClientEvent) : PortLost p (evs ++ evs') := by
  obtain ⟨a, ev, b, sub, command, payload, expected, k, rfl, h⟩ := h
  exact ⟨a, ev, b ++ evs', sub, command, payload, expected, k, by simp, h⟩

theorem Interrupted.more {α : Type} {p : Prog α} {evs : List ClientEvent} (h : Interrupted p evs)
    (evs' : List ClientEvent) : Interrupted p (evs ++ evs') := by
  obtain ⟨a, ev, b, rfl, h⟩ := h
  exact ⟨a, ev, b ++ evs', by simp, h⟩

theorem NoReply.more {α : Type} {p : Prog α} {evs : List ClientEvent} {o : Obj}
    (h : NoReply p evs o) (evs' : List ClientEvent) : NoReply p (evs ++ evs') o := by
  obtain ⟨a, b, t, x, time, bytes, rfl, h⟩ := h
  exact ⟨a, b ++ evs', t, x, time, bytes, by simp, h⟩

theorem InVain.more {α : Type} {p : Prog α} {evs : List ClientEvent} {m : Matcher} {timeout : Nat}
    (h : InVain p evs m timeout) (evs' : List ClientEvent) : InVain p (evs ++ evs') m timeout := by
  obtain ⟨a, b, w, d, time, rfl, h⟩ := h
  exact ⟨a, b ++ evs', w, d, time, by simp, h⟩

theorem CallCause.more {α : Type} {p : Prog α} {evs : List ClientEvent} {o : Obj} {e : PyErr}
    (h : CallCause p evs o e) (evs' : List ClientEvent) : CallCause p (evs ++ evs') o e := by
  cases h with
  | closed h => exact .closed (PortLost.more h _)
  | cancelled h => exact .cancelled (Interrupted.more h _)
  | unanswered h => exact .unanswered (NoReply.more h _)
  | refused => exact .refused
  | lost => exact .lost

/-- What the waiter of a call waits for. -/
theorem awaited_answers {o rsp : Obj} {m : Matcher} {to : Nat} (how : ownWaiter o = some (m, to))
    (ho : AwaitedBy o rsp) : Answers m rsp := by
  unfold ownWaiter at how
  split at how
  · rename_i hs
    simp only [Option.some.injEq, Prod.mk.injEq] at how
    rw [← how.1]
    rcases ho with ⟨_, h⟩ | ⟨h, _⟩
    · exact ⟨h.1.symm, h.2.1.symm, h.2.2.symm, by simp⟩
    · rw [hs] at h; simp at h
  · rename_i hs
    split at how
    · simp only [Option.some.injEq, Prod.mk.injEq] at how
      rw [← how.1]
      rcases ho with ⟨h, _⟩ | ⟨_, h⟩
      · exact absurd h hs
      · exact ⟨h.1.symm, h.2.1.symm, h.2.2.symm, by simp⟩
    · simp at how

/-- A call of the coroutine is late. -/
theorem late_noReply {α : Type} {p : Prog α} (hm : Modest p) {evs : List ClientEvent}
    (hr : Polite evs) {t w d : Nat} {k : Task} (hp : (Client.run p evs).pend = .call t)
    (hk : (Client.run p evs).api.tasks t = some k) (hpc : k.pc = .waiting w d)
    (hf : (Client.run p evs).api.fut w = .pending) (hd : d ≤ (Client.run p evs).api.now) :
    NoReply p evs k.obj := by
  obtain ⟨past, ci⟩ := client_inv p evs
  obtain ⟨es, he⟩ := client_events p evs
  have hk' := hk
  rw [he] at hk'
  obtain ⟨x, time, hx, hxw, how, hdd, b, hb⟩ := callTimes_run es _ callTimes_init t k w d hk' hpc
  rw [← he] at hx hb
  have hlim := ownWaiter_limit how
  have hw : WrittenAs k.obj b := by
    obtain ⟨k', h1, -, h2⟩ := ci.api.log.sentStarted t b (hb.subset (by simp))
    rw [hk] at h1
    cases h1
    exact encode_ok h2
  refine ⟨evs, [], t, x, time, b, by simp, hp, hw, hb, by omega, ?_⟩
  intro a' f b' rsp ha hx' ht hdec haw
  rw [← hxw] at hf
  obtain ⟨y, hy, hq, hans⟩ := client_silent hm hr hf ha hx' (by omega) hdec (awaited_answers how haw)
  obtain ⟨es', he', hs⟩ := client_plain hm (Polite.left (ha ▸ hr))
  obtain ⟨past', ci'⟩ := client_inv p a'
  obtain ⟨time', hreg, -⟩ := ci'.api.wait.regW y hy
  have hz := (hs y time' hreg).2 hq
  rcases haw with ⟨-, h⟩ | ⟨-, -, h, -⟩
  · have := hans.1; rw [hz.1, h.1] at this; cases this
  · have := hans.2.1; rw [hz.2, h] at this; cases this

/-- A call of the coroutine that ended with an exception ended for a reason. -/
theorem call_cause {α : Type} {p : Prog α} (hm : Modest p) (evs : List ClientEvent) (hr : Polite evs)
    {t : Nat} {k : Task} {err : PyErr} (hp : (Client.run p evs).pend = .call t)
    (hk : (Client.run p evs).api.tasks t = some k) (hpc : k.pc = .done (.error err))
    (hs : Sendable k.obj) : CallCause p evs k.obj err := by
  induction evs using client_ind generalizing t k err with
  | h0 => cases hp
  | h1 evs ev ih =>
    have hr' := hr.left
    have old : (Client.run p evs).pend = .call t → (Client.run p evs).api.tasks t = some k →
        CallCause p (evs ++ [ev]) k.obj err := fun h1 h2 => (ih hr' h1 h2 hpc hs).more _
    rw [client_snoc] at hp hk
    -- an event of the API while the call is going on
    have step : ∀ {e : Event}, (Client.run p evs).pend = .call t →
        ((Client.run p evs).api.step e).tasks t = some k →
        (e = .cancel t → ev = .api (.cancel t) ∨ ev = .cancel) →
        CallCause p (evs ++ [ev]) k.obj err := by
      intro e h1 h2 hc
      rcases fails_step hs h2 hpc with h | h
      · exact old h1 h
      · obtain ⟨past, ci⟩ := client_inv p evs
        obtain ⟨o, x, ⟨sub, command, payload, kk, hprog, -⟩, hsub, -⟩ := ci.call t h1
        cases h with
        | closed h =>
          exact .closed ⟨evs, ev, [], sub, command, payload, _, kk, rfl, hprog,
            fun h' => (by rw [h1] at h'; cases h'), h⟩
        | cancelled h =>
          refine .cancelled ⟨evs, ev, [], rfl, ?_⟩
          rcases hc h with h | h
          · exact .inr (.inl ⟨t, h, h1⟩)
          · exact .inl ⟨h, by rw [h1]; intro h; cases h⟩
        | @late k0 w d h3 h4 h5 h6 =>
          have : k0.obj = k.obj := by
            obtain ⟨k1, h7, h8, -⟩ := (ci.api.log.subIff t o none x).mp hsub
            have h9 := ((ci.api.step e).log.subIff t o none x).mp ((grows_step _ e).log.subset hsub)
            obtain ⟨k2, h10, h11, -⟩ := h9
            rw [h3] at h7
            rw [h2] at h10
            cases h7
            cases h10
            rw [h8, h11]
          rw [← this]
          exact .unanswered (NoReply.more (late_noReply hm hr' h1 h3 h4 h5 h6) _)
        | refused => exact .refused
        | lost => exact .lost
    cases client_stepped (Client.run p evs) ev with
    | same h1 h2 h3 h4 => rw [h4] at hp; rw [h1] at hk; exact old hp hk
    | event e he h1 h2 h3 h4 =>
      rw [h4] at hp
      rw [h1] at hk
      refine step hp hk fun h => ?_
      rcases he with he | ⟨o, he⟩ | ⟨u, he, -⟩
      · rw [he, h]; exact .inl rfl
      · rw [h] at he; cases he
      · exact .inr he
    | submit hprog hn ho h1 h2 h3 h4 =>
      rw [h4] at hp
      cases hp
      rw [h1] at hk
      obtain ⟨past, ci⟩ := client_inv p evs
      have fresh : ∀ k', (Client.run p evs).api.tasks (Client.run p evs).api.nextTid ≠ some k' := by
        intro k' h
        have := (ci.api.lock.tid _).mp ⟨k', h⟩
        omega
      rcases fails_step hs hk hpc with h | h
      · exact absurd h (fresh _)
      · cases h with
        | closed h => exact .closed ⟨evs, _, [], _, _, _, _, _, rfl, hprog, fun _ => rfl, h⟩
        | cancelled h => cases h
        | late h3 => exact absurd h3 (fresh _)
        | refused => exact .refused
        | lost => exact .lost
    | wait _ h1 h2 h3 h4 => rw [h4] at hp; cases hp
    | ended _ _ _ _ h4 => rw [h4] at hp; cases hp

/-! ### Waits -/

/-- Somebody else gave up a waiter of the coroutine. -/
theorem waiter_cancelled {α : Type} (p : Prog α) (evs : List ClientEvent) {before between : List Act}
    {m : Matcher} {timeout w : Nat}
    (hh : (Client.run p evs).hist = before ++ ⟨.waitFor m timeout, .ok w⟩ :: between) :
    w ∈ (Client.run p evs).api.ext ∧ ((Client.run p evs).api.fut w = .cancelled →
      Interrupted p evs ∨ ∃ e, (⟨.wait w, .error e⟩ : Act) ∈ between) := by
  induction evs using client_ind generalizing between with
  | h0 => cases before <;> cases hh
  | h1 evs ev ih =>
    obtain ⟨past, ci⟩ := client_inv p evs
    have stay : ∀ {b b' : List Act} {s : Api}, (Client.run p evs).hist =
          before ++ ⟨.waitFor m timeout, .ok w⟩ :: b → (∀ a ∈ b, a ∈ b') →
        s = (Client.run p evs).api → w ∈ s.ext ∧ (s.fut w = .cancelled →
          Interrupted p (evs ++ [ev]) ∨ ∃ e, (⟨.wait w, .error e⟩ : Act) ∈ b') := by
      intro b b' s h hb hs
      subst hs
      obtain ⟨h1, h2⟩ := ih h
      refine ⟨h1, fun h => ?_⟩
      rcases h2 h with h | ⟨e, h⟩
      · exact .inl (Interrupted.more h _)
      · exact .inr ⟨e, hb _ h⟩
    have move : ∀ {b b' : List Act} {s : Api} {e : Event}, (Client.run p evs).hist =
          before ++ ⟨.waitFor m timeout, .ok w⟩ :: b → (∀ a ∈ b, a ∈ b') →
        s = (Client.run p evs).api.step e →
        (e = .abandon w → ev = .api e ∨ ∃ x, (⟨.wait w, .error x⟩ : Act) ∈ b') →
        w ∈ s.ext ∧ (s.fut w = .cancelled →
          Interrupted p (evs ++ [ev]) ∨ ∃ e, (⟨.wait w, .error e⟩ : Act) ∈ b') := by
      intro b b' s e h hb hs he
      obtain ⟨h1, h2⟩ := stay h hb rfl
      subst hs
      refine ⟨ext_step _ _ _ h1, fun hf => ?_⟩
      rcases cancelled_step ci.api h1 hf with hf | rfl
      · exact h2 hf
      · rcases he rfl with he | he
        · refine .inl ⟨evs, ev, [], rfl, .inr (.inr ⟨m, timeout, w, he, ?_⟩)⟩
          rw [h]
          exact List.mem_append_right _ (.head _)
        · exact .inr he
    rw [client_snoc] at hh ⊢
    cases client_stepped (Client.run p evs) ev with
    | same h1 h2 h3 h4 => exact stay (h3 ▸ hh) (fun _ h => h) h1
    | event e he h1 h2 h3 h4 =>
      refine move (h3 ▸ hh) (fun _ h => h) h1 fun h => ?_
      rcases he with he | ⟨o, he⟩ | ⟨t, -, he, -⟩
      · exact .inl he
      · rw [h] at he; cases he
      · rw [h] at he; cases he
    | submit hp hn ho h1 h2 h3 h4 =>
      exact move (h3 ▸ hh) (fun _ h => h) h1 fun h => by cases h
    | wait hp h1 h2 h3 h4 => exact stay (h3 ▸ hh) (fun _ h => h) h1
    | @ended _ _ op k r hp hend h2 h3 h4 =>
      rw [h3] at hh
      obtain ⟨s, hs⟩ : ∃ s, ((Client.run p evs).step ev).api = s := ⟨_, rfl⟩
      rw [hs] at hend ⊢
      rcases snoc_split hh with ⟨rfl, ha, rfl⟩ | ⟨b, rfl, hb'⟩
      · rw [← ha] at hend
        cases hend
        refine ⟨.head _, fun h => ?_⟩
        have h : (Client.run p evs).api.fut (Client.run p evs).api.waiterId = .cancelled := h
        rw [ci.api.wait.fresh _ (Nat.le_refl _)] at h
        cases h
      · have hb : ∀ a ∈ b, a ∈ b ++ [⟨op, r⟩] := fun _ h => List.mem_append_left _ h
        generalize ha : (⟨op, r⟩ : Act) = a at hend hb ⊢
        cases hend with
        | waitFor => exact move hb' hb rfl fun h => by cases h
        | @late u v d hw hf hd =>
          refine move hb' hb rfl fun h => ?_
          cases h
          exact .inr ⟨_, List.mem_append_right _ (.head _)⟩
        | @interrupted u v d hw =>
          refine move hb' hb rfl fun h => ?_
          cases h
          exact .inr ⟨_, List.mem_append_right _ (.head _)⟩
        | _ => exact stay hb' hb rfl

/-- Why a wait of the coroutine failed. -/
inductive WaitCause {α : Type} (p : Prog α) (evs : List ClientEvent) (m : Matcher) (timeout : Nat) :
    PyErr → Prop where
  | cancelled (h : Interrupted p evs) : WaitCause p evs m timeout .cancelledError
  | inVain (h : InVain p evs m timeout) : WaitCause p evs m timeout .timeoutError

/-- A wait that failed failed for a reason. -/
theorem wait_cause {α : Type} {p : Prog α} (hm : Modest p) {evs : List ClientEvent} (hr : Polite evs)
    {before between after : List Act} {m : Matcher} {timeout w : Nat} {e : PyErr}
    (hh : (Client.run p evs).hist =
      before ++ ⟨.waitFor m timeout, .ok w⟩ :: between ++ ⟨.wait w, .error e⟩ :: after)
    (hb : ∀ x, (⟨.wait w, .error x⟩ : Act) ∉ between) : WaitCause p evs m timeout e := by
  obtain ⟨x, ev, y, k, s, rfl, h1, h2, h3⟩ := act_moment p evs hh
  cases h3 with
  | cancelled hw hf =>
    rcases (waiter_cancelled p x h1).2 hf with h | ⟨e, h⟩
    · exact .cancelled (Interrupted.more h _)
    · exact absurd h (hb e)
  | @late _ v d hw hf hd =>
    have i := limit_inv p x
    obtain ⟨k', hk'⟩ := i.prog v d hw
    rw [h2] at hk'
    have hv : w = v := by cases hk'; rfl
    subst hv
    obtain ⟨-, -, time, h4, -, h5⟩ := i.reg m timeout w (by
      rw [h1]; exact List.mem_append_right _ (.head _))
    refine .inVain ⟨x, _ :: y, w, d, time, rfl, hw, h4, Nat.le_trans (h5 d hw) hd, ?_⟩
    intro a' f b' rsp ha hx ht hdec hans
    exact client_silent (x := { id := w, matcher := m, timeout, sequence := none }) hm hr.left hf ha hx
      ht hdec hans
  | interrupted hw =>
    exact .cancelled ⟨x, _, y, rfl, .inl ⟨rfl, by rw [hw]; intro h; cases h⟩⟩

/-! ### Operations -/

/-- A request that failed failed for a reason. -/
theorem request_cause {α : Type} {p : Prog α} (hm : Modest p) {evs : List ClientEvent} (hr : Polite evs)
    {h1 h2 : List Act} {sub : Subsystem} {command : String} {payload : Payload}
    {expected : Option (List Int)} {e : PyErr} {o : Obj}
    (hh : (Client.run p evs).hist = h1 ++ ⟨.request sub command payload expected, .error e⟩ :: h2)
    (ho : Obj.fromCommand sub command payload = .ok o) (hs : Sendable o) :
    CallCause p evs o e ∧ e ≠ .keyError "waiter" ∧ ∀ z, e = .commandError z → ∃ a b t bytes f rsp, evs = a ++ b ∧
      (Client.run p a).pend = .call t ∧ WrittenAs o bytes ∧
      [Entry.sent t bytes, .received f rsp].Sublist (Client.run p a).api.log ∧
      Obj.fromUnpiFrame f = .ok rsp ∧ o.commandType = .SREQ ∧ ResponseTo o rsp ∧
      badStatus expected rsp = some z := by
  obtain ⟨x, ev, y, k, s, rfl, h3, h4, h5⟩ := act_moment p evs hh
  generalize ha : (⟨.request sub command payload expected, .error e⟩ : Act) = a at h5
  cases h5 with
  | @request sub' command' payload' expected' t r ht hres =>
    injection ha with ha1 ha2
    injection ha1 with e1 e2 e3 e4
    subst e1 e2 e3 e4
    obtain ⟨past, ci⟩ := client_inv p x
    obtain ⟨o', x', ⟨sub', command', payload', k', hp', ho'⟩, hsub, -⟩ := ci.call t ht
    rw [h4] at hp'
    have he : Op.request sub command payload expected = .request sub' command' payload' x' := by
      injection hp'
    injection he with e1 e2 e3 e4
    subst e1 e2 e3 e4
    rw [ho] at ho'
    cases ho'
    obtain ⟨kt, hk, hko, hkw, hke⟩ := (ci.api.log.subIff t o none expected).mp hsub
    cases r with
    | ok r => cases ha2
    | error err =>
      have hfin := result_logged ci.api hres
      obtain ⟨k2, hk2, hpc⟩ := (ci.api.log.fin t _).mp hfin
      rw [hk] at hk2
      cases hk2
      have hcc := call_cause hm x hr.left ht hk hpc (hko ▸ hs)
      rw [hko] at hcc
      have hout := ci.api.resp.done t kt _ hk hpc
      obtain ⟨be, henc⟩ : ∃ b, encode o = .ok b := by
        obtain ⟨-, b, f, hf, hb⟩ := hs
        exact ⟨b, by unfold encode; rw [hf, ok_bind]; exact hb⟩
      have hnl : err ≠ .keyError "waiter" := by
        intro h
        subst h
        rcases hout with ⟨_, h | h | h | ⟨h, _⟩⟩ | ⟨_, _, h | h⟩ | ⟨_, m, to, b, f, o, z, _, _, _, _, h | ⟨_, h⟩⟩
        · cases h
        · cases h
        · rw [hko, henc] at h; cases h
        · cases h
        · cases h
        · cases h
        · cases h
        · rw [hkw] at h; cases h
      have hle : e = err := by
        injection ha2 with ha2
        rw [ha2]
        cases hcc <;> rfl
      subst hle
      refine ⟨hcc.more _, hnl, fun z hz => ?_⟩
      subst hz
      rcases hout with ⟨_, h | h | h | ⟨h, _⟩⟩ | ⟨_, _, h | h⟩ |
        ⟨hst, m, to, b, f, rsp, z', how, hmm, hbs, hsl, h | ⟨h, _⟩⟩
      · cases h
      · cases h
      · rw [hko, henc] at h; cases h
      · cases h
      · cases h
      · cases h
      · cases h
        rw [hko] at how hst
        rw [hke] at hbs
        have hsl' : [Entry.sent t b, .received f rsp].Sublist (Client.run p x).api.log :=
          (List.sublist_append_left [Entry.sent t b, .received f rsp] [_]).trans hsl
        refine ⟨x, _ :: y, t, b, f, rsp, rfl, ht, ?_, hsl', ?_, hst, ?_, hbs⟩
        · obtain ⟨k', h4, _, h5⟩ := ci.api.log.sentStarted t b (hsl'.subset (by simp))
          rw [hk] at h4; cases h4
          rw [hko] at h5
          exact encode_ok h5
        · exact ci.api.resp.recv f rsp (hsl'.subset (by simp))
        · rcases ownWaiter_answers how hmm with ⟨_, h⟩ | ⟨h, _⟩
          · exact h
          · rw [hst] at h; cases h
      · cases h
  | build h =>
    injection ha with ha1 ha2
    injection ha1 with e1 e2 e3 e4
    subst e1 e2 e3 e4
    rw [ho] at h
    cases h
  | _ => cases ha

end Zcc
