import Verif.Proofs.Pairing
import Verif.Proofs.ClientBounded

/-! The messages in the log are the frames that arrived. -/

namespace Zcc
open Spec

/-- The frame of an entry that records a received message. -/
def Entry.frame? : Entry → Option Frame
  | .received f _ => some f
  | _ => none

/-- The frame that arrives with an event, if it can be decoded. -/
def Event.arrives : Event → Option Frame
  | .frame f => match Obj.fromUnpiFrame f with | .ok _ => some f | .error _ => none
  | _ => none

namespace Arrived

/-- Nothing was received from one state to the other. -/
def Quiet (s s' : Api) : Prop := s'.log.filterMap Entry.frame? = s.log.filterMap Entry.frame?

theorem Quiet.refl (s : Api) : Quiet s s := rfl

theorem Quiet.trans {a b c : Api} (h : Quiet a b) (h' : Quiet b c) : Quiet a c := Eq.trans h' h

theorem quiet_note {s s' : Api} {x : Entry} (h : s'.log = s.log ++ [x]) (hx : x.frame? = none) :
    Quiet s s' := by
  unfold Quiet; rw [h, List.filterMap_append]; simp [hx]

theorem quiet_log {s s' : Api} (h : s'.log = s.log) : Quiet s s' := by unfold Quiet; rw [h]

theorem quiet_setPc (s : Api) (t : Nat) (pc : Pc) : Quiet s (s.setPc t pc) := by
  unfold Api.setPc; split <;> exact quiet_log rfl

theorem quiet_finish (s : Api) (t : Nat) (r : Except PyErr (Option Obj)) : Quiet s (s.finish t r) :=
  quiet_note (x := .finished t r) rfl rfl

theorem quiet_setResult (s : Api) (w : Nat) (o : Obj) : Quiet s (s.setResult w o) := by
  unfold Api.setResult
  split
  · exact quiet_note rfl rfl
  · exact .refl _

theorem quiet_start (s : Api) (t : Nat) (o : Obj) : Quiet s (s.start t o) := by
  have send : ∀ (s s' : Api) f, s.uartSend t f = .ok s' → Quiet s s' := by
    intro s s' f h
    unfold Api.uartSend at h
    split at h
    · split at h
      · cases h
      · cases h; exact quiet_note rfl rfl
    · cases h
  have wait : ∀ m timeout, Quiet s (s.waitFor m timeout none).2 := fun m timeout => quiet_note rfl rfl
  unfold Api.start
  split
  · exact quiet_finish _ _ _
  · split
    · dsimp only
      split
      · exact (wait _ _).trans (quiet_finish _ _ _)
      · rename_i h
        exact ((wait _ _).trans (send _ _ _ h)).trans (quiet_setPc _ _ _)
    · split
      · split
        · exact quiet_finish _ _ _
        · rename_i h
          exact (send _ _ _ h).trans (quiet_finish _ _ _)
      · exact quiet_finish _ _ _

theorem quiet_conclude (s : Api) (t : Nat) (k : Task) (o : Obj) : Quiet s (s.conclude t k o) := by
  unfold Api.conclude
  split
  · split
    · exact quiet_finish _ _ _
    · split
      · exact quiet_finish _ _ _
      · split
        · rename_i w _ _
          refine Quiet.trans (b := s.drop w) (quiet_note (x := .dropped w) rfl rfl) ?_
          exact (quiet_setResult _ _ _).trans (quiet_finish _ _ _)
        · exact quiet_finish _ _ _
  · exact quiet_finish _ _ _

theorem quiet_grant (s : Api) : Quiet s s.grant := by
  unfold Api.grant
  split
  · split
    · have h : ∀ (h : Option Nat) (q : List Nat), Quiet s { s with holder := h, queue := q } :=
        fun _ _ => quiet_log rfl
      exact (h _ _).trans ((quiet_setPc _ _ _).trans (quiet_start _ _ _))
    · exact .refl _
  · exact .refl _

theorem arrived_step (s : Api) (e : Event) :
    (s.step e).log.filterMap Entry.frame? = s.log.filterMap Entry.frame? ++ e.arrives.toList := by
  have quiet : ∀ {s' : Api} {e : Event}, e.arrives = none → Quiet s s' →
      s'.log.filterMap Entry.frame? = s.log.filterMap Entry.frame? ++ e.arrives.toList := by
    intro s' e he h
    rw [he]
    exact Eq.trans h (List.append_nil _).symm
  cases e with
  | submit o w x =>
    refine quiet rfl ?_
    have h : Quiet s (s.enqueue o w x) := quiet_note rfl rfl
    unfold Api.step
    dsimp only
    split
    · exact h.trans (quiet_grant _)
    · exact h
  | grant => exact quiet rfl (quiet_grant s)
  | frame f =>
    unfold Event.arrives
    show (s.dataReceived f).1.log.filterMap _ = _
    rcases hd : Obj.fromUnpiFrame f with err | o
    · unfold Api.dataReceived
      simp only [hd, Option.toList, List.append_nil]
    · rw [dataReceived_filterMap _ (fun _ _ => rfl) (fun _ => rfl) s hd, List.filterMap_append]
      simp only [hd]
      rfl
  | wake t =>
    refine quiet rfl ?_
    unfold Api.step
    dsimp only
    split
    · split
      · split
        · exact quiet_conclude _ _ _ _
        · exact .refl _
      · exact .refl _
    · exact .refl _
  | timeout t =>
    refine quiet rfl ?_
    unfold Api.step
    dsimp only
    split
    · split
      · split
        · exact (quiet_finish s t (.error .timeoutError)).trans (quiet_log rfl)
        · exact .refl _
      · exact .refl _
    · exact .refl _
  | cancel t =>
    refine quiet rfl ?_
    unfold Api.step
    dsimp only
    split
    · split
      · exact quiet_note rfl rfl
      · exact (quiet_finish s t (.error .cancelledError)).trans (quiet_log rfl)
      · exact .refl _
    · exact .refl _
  | timer w =>
    refine quiet rfl ?_
    unfold Api.step Api.timerCallback
    dsimp only
    split
    · split
      · exact quiet_log rfl
      · exact quiet_note rfl rfl
    · exact .refl _
  | tick ms => exact quiet rfl (quiet_log rfl)
  | setUart b => exact quiet rfl (quiet_log rfl)
  | register m timeout q => exact quiet rfl (quiet_note rfl rfl)
  | registerResponse o q =>
    refine quiet rfl ?_
    unfold Api.step Api.createResponseWaiter
    dsimp only
    split
    · exact .refl _
    · exact .refl _
    · exact quiet_note rfl rfl
  | abandon w =>
    refine quiet rfl ?_
    unfold Api.step
    dsimp only
    split
    · exact quiet_log rfl
    · exact .refl _

end Arrived

/-- On a coroutine: only its environment receives frames. -/
theorem client_arrived_step {α : Type} (c : Client α) (ev : ClientEvent) :
    (c.step ev).api.log.filterMap Entry.frame? = c.api.log.filterMap Entry.frame? ++
      (match ev with | .api e => e.arrives | _ => none).toList := by
  cases ev with
  | api e => exact Arrived.arrived_step _ _
  | go =>
    simp only [Option.toList, List.append_nil]
    unfold Client.step
    dsimp only
    split
    · rename_i op k _
      cases op <;> unfold Client.advance
      · dsimp only
        split
        · split <;> rfl
        · split
          · rfl
          · exact (Arrived.arrived_step _ _).trans (List.append_nil _)
      · rfl
      · exact (Arrived.arrived_step _ (.register ..)).trans (List.append_nil _)
      · dsimp only
        split
        · split
          · rfl
          · rfl
          · split
            · exact (Arrived.arrived_step _ (.abandon _)).trans (List.append_nil _)
            · rfl
        · rfl
      all_goals rfl
    · rfl
  | connected r =>
    simp only [Option.toList, List.append_nil]
    unfold Client.step
    dsimp only
    split
    · rename_i op k _
      cases op <;> rfl
    · rfl
  | spawned =>
    simp only [Option.toList, List.append_nil]
    show c.runSpawned.api.log.filterMap _ = _
    unfold Client.runSpawned
    split
    · rfl
    · split
      · rfl
      · exact (Arrived.arrived_step _ (.submit ..)).trans (List.append_nil _)
  | cancel =>
    simp only [Option.toList, List.append_nil]
    unfold Client.step
    dsimp only
    split
    · rename_i op k _
      cases op <;> unfold Client.interrupt <;> dsimp only
      · split
        · exact (Arrived.arrived_step _ (.cancel _)).trans (List.append_nil _)
        · rfl
      · split
        · exact (Arrived.arrived_step _ (.abandon _)).trans (List.append_nil _)
        · rfl
    · rfl

theorem client_arrived {α : Type} (p : Prog α) (evs : List ClientEvent) :
    (Client.run p evs).api.log.filterMap Entry.frame? =
      evs.filterMap (fun ev => match ev with | .api e => e.arrives | _ => none) := by
  have gen : ∀ (evs : List ClientEvent) (c : Client α),
      (evs.foldl Client.step c).api.log.filterMap Entry.frame? =
        c.api.log.filterMap Entry.frame? ++
          evs.filterMap (fun ev => match ev with | .api e => e.arrives | _ => none) := by
    intro evs
    induction evs with
    | nil => intro c; simp
    | cons ev evs ih =>
      intro c
      rw [List.foldl_cons, ih, client_arrived_step, List.filterMap_cons, List.append_assoc]
      cases (match ev with | .api e => e.arrives | _ => none : Option Frame) <;> rfl
  exact (gen evs _).trans (by rfl)

end Zcc
