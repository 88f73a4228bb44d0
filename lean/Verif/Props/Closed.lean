import Verif.Proofs.Closed
import Verif.Props.Runtime

/-!
# C67: requests without a connection
-/

namespace Zcc
open Spec

/-- **C67.** While the port is closed, nothing is written. -/
theorem c67_not_written (es1 es2 : List Event) (ho : portOpen es1 = false)
    (hs : .setUart true ∉ es2) (t : Nat) (b : List UInt8)
    (h : .sent t b ∈ (Api.init.run (es1 ++ es2)).log) : .sent t b ∈ (Api.init.run es1).log := by
  induction es2 generalizing es1 with
  | nil => rwa [List.append_nil] at h
  | cons e es2 ih =>
    rw [show es1 ++ e :: es2 = (es1 ++ [e]) ++ es2 by simp] at h
    have hp : portOpen (es1 ++ [e]) = false := by
      rw [portOpen_snoc]
      cases e <;> first | exact ho | skip
      rename_i b
      cases b
      · rfl
      · exact absurd List.mem_cons_self hs
    have h1 := ih (es1 ++ [e]) hp (fun hm => hs (List.mem_cons_of_mem _ hm)) h
    rw [Zcc.run_snoc] at h1
    by_cases he : ∃ b, e = .setUart b
    · obtain ⟨b, rfl⟩ := he; exact h1
    · refine ((mute_step _ e fun b h => he ⟨b, h⟩).2 t b h1).resolve_right fun hu => ?_
      rw [uart_run, ho] at hu; cases hu

/-- **C67.** A call that was not written before the port was closed can only fail, with
`AttributeError`, because it was cancelled, or because it could not have been written anyway. -/
theorem c67_fails (es1 es2 : List Event) (ho : portOpen es1 = false) (hs : .setUart true ∉ es2)
    (t : Nat) (o : Obj) (w : Option Nat) (x : Option (List Int))
    (hsub : .submitted t o w x ∈ (Api.init.run (es1 ++ es2)).log)
    (hn : ∀ b, .sent t b ∉ (Api.init.run es1).log) (r : Except PyErr (Option Obj))
    (h : .finished t r ∈ (Api.init.run (es1 ++ es2)).log) :
    ∃ e, r = .error e ∧ Unsendable o e := by
  have hn' : ∀ b, .sent t b ∉ (Api.init.run (es1 ++ es2)).log := fun b hb =>
    hn b (c67_not_written es1 es2 ho hs t b hb)
  have i := Zcc.inv_run (es1 ++ es2)
  obtain ⟨k, hk, rfl, _⟩ := (i.log.subIff t o w x).mp hsub
  obtain ⟨k', hk', hp⟩ := (i.log.fin t r).mp h
  rw [hk] at hk'; cases hk'
  have out := i.resp.done t k r hk hp
  match r, out with
  | .ok (some y), ⟨m, to, b, f, _, _, h3, _⟩ => exact absurd (h3.subset (by simp)) (hn' b)
  | .ok none, ⟨_, _, b, h3⟩ => exact absurd (h3.subset (by simp)) (hn' b)
  | .error e, out =>
    refine ⟨e, rfl, ?_⟩
    rcases out with ⟨_, h1 | h1 | h1 | h1⟩ | ⟨⟨b, hb⟩, _⟩ | ⟨_, m, to, b, f, y, z, _, _, _, h5, _⟩
    · exact .inl h1
    · exact .inr (.inl h1)
    · rcases encode_error h1 with h2 | h2
      · exact .inr (.inr (.inl h2))
      · exact .inr (.inr (.inr (.inl h2)))
    · exact .inr (.inr (.inr (.inr h1)))
    · exact absurd hb (hn' b)
    · exact absurd (h5.subset (by simp)) (hn' b)

theorem idle_of_allEnded {s : Api} (i : Inv s) (h : AllEnded s.log) :
    s.holder = none ∧ s.queue = [] := by
  have key : ∀ t k, s.tasks t = some k → ∃ r, k.pc = .done r := by
    intro t k hk
    obtain ⟨r, hr⟩ := h t k.obj k.waiterId k.expected ((i.log.subIff t _ _ _).mpr ⟨k, hk, rfl, rfl, rfl⟩)
    obtain ⟨k', hk', hp⟩ := (i.log.fin t r).mp hr
    rw [hk] at hk'; cases hk'
    exact ⟨r, hp⟩
  constructor
  · rcases hh : s.holder with _ | t
    · rfl
    · obtain ⟨k, hk, ha⟩ := (i.lock.hIff t).mp hh
      obtain ⟨r, hr⟩ := key t k hk
      rw [hr] at ha; exact ha.elim
  · rcases hq : s.queue with _ | ⟨t, q⟩
    · rfl
    · obtain ⟨k, hk, hp⟩ := (i.lock.qIff t).mp (by rw [hq]; exact List.mem_cons_self)
      obtain ⟨r, hr⟩ := key t k hk
      rw [hr] at hp; cases hp

theorem nextTid_eq (es : List Event) :
    (Api.init.run es).nextTid = callsMade (Api.init.run es).log := by
  have i := Zcc.inv_run es
  have key : ∀ L : List Entry, callsMade L = (L.filterMap Entry.subId).length := by
    intro L
    unfold callsMade
    induction L with
    | nil => rfl
    | cons x L ih => cases x <;> simp [List.filterMap_cons, Entry.subId, ih]
  rw [key, i.log.subs, List.length_range]

/-- **C67.** If no other call is in progress, a request made while the port is closed fails at once,
with `AttributeError` if it could have been written. -/
theorem c67_at_once (es : List Event) (ho : portOpen es = false)
    (ha : AllEnded (Api.init.run es).log) (o : Obj) (x : Option (List Int)) (f : Frame)
    (hf : o.toUnpiFrame = .ok f) (ht : o.commandType = .SREQ ∨ o.commandType = .AREQ) :
    .finished (callsMade (Api.init.run es).log) (.error .attributeError) ∈
      (Api.init.run (es ++ [.submit o none x])).log := by
  obtain ⟨hh, hq⟩ := idle_of_allEnded (Zcc.inv_run es) ha
  have hu : (Api.init.run es).uart = false := by rw [uart_run]; exact ho
  rw [Zcc.run_snoc, ← nextTid_eq]
  generalize hs : Api.init.run es = s at hh hq hu
  rw [Api.step, if_pos ⟨hh, hq⟩]
  unfold Api.grant
  rw [show (s.enqueue o none x).holder = none from hh,
    show (s.enqueue o none x).queue = [s.nextTid] by rw [Api.enqueue]; dsimp only; rw [hq]; rfl]
  dsimp only
  rw [show (s.enqueue o none x).tasks s.nextTid = some { obj := o, waiterId := none, expected := x, pc := .queued } from
    upd_same _ _ _]
  dsimp only
  have mem : ∀ (s' : Api) r, Entry.finished s.nextTid r ∈ (s'.finish s.nextTid r).log := by
    intro s' r
    exact List.mem_append_right _ List.mem_cons_self
  have closed : ∀ s' : Api, s'.uart = false → s'.uartSend s.nextTid f = .error .attributeError := by
    intro s' h
    unfold Api.uartSend
    rw [h]; rfl
  have hu' : ((({ s.enqueue o none x with holder := some s.nextTid, queue := [] } : Api).setPc
      s.nextTid .running)).uart = false := (mute_setPc _ _ _).1.trans hu
  unfold Api.start
  rw [hf]
  dsimp only
  split
  · rename_i m to _
    rw [closed _ ((mute_waitFor _ m to none).1.trans hu')]
    exact mem _ _
  · rename_i hw
    rw [if_pos]
    · rw [closed _ hu']
      exact mem _ _
    · rcases ht with ht | ht
      · unfold ownWaiter at hw
        rw [if_pos ht] at hw; cases hw
      · exact ht

/-- A version request before the port is opened fails, writes nothing. -/
example : .finished 0 (.error .attributeError) ∈ (Api.init.run ([] ++ [.submit exVersion none none])).log :=
  c67_at_once [] rfl (fun _ _ _ _ h => by cases h) exVersion none (Frame.of .SREQ .SYS 2 [])
    (by decide +kernel) (.inl rfl)

example : ∀ b, Entry.sent 0 b ∉ (Api.init.run ([] ++ [.submit exVersion none none])).log :=
  fun b h => by cases c67_not_written [] _ rfl (by simp) 0 b h

example : ∃ e, (Except.error PyErr.attributeError : Except PyErr (Option Obj)) = .error e ∧
    Unsendable exVersion e :=
  c67_fails [] [.submit exVersion none none] rfl (by simp) 0 exVersion none none (by decide +kernel)
    (fun b h => by cases h) _ (by decide +kernel)

/-- The waiter of the failed request is still there when the next version request is answered; both
get the response (see C54 for the general statement). -/
example : (Api.init.run [.submit exVersion none none, .setUart true, .submit exVersion none none,
      .frame exVersionRsp, .wake 1]).log.any (fun e => match e with
        | .finished 1 (.ok (some _)) => true | _ => false) = true := by decide +kernel

end Zcc
