import Verif.Proofs.Pause
import Verif.Props.Requests
import Verif.Proofs.Bounded

/-!
# C68: the pause after broadcasts and multicasts
-/

namespace Zcc
open Spec

theorem requestOf_iff {s : AppSys} {n i t : Nat} :
    RequestOf s n i t ↔ s.tasks[n]?.bind (·.ran) = some (i, t) := by
  unfold RequestOf
  rw [Option.bind_eq_some_iff]

theorem notEnded_iff {s : AppSys} {n : Nat} : (∀ r, ¬ EndedWith s n r) ↔
    (match s.tasks[n]? with | some k => (match k.pc with | .done _ => false | _ => true) | none => true)
      = true := by
  unfold EndedWith
  constructor
  · intro h
    split
    · rename_i k hk
      split
      · rename_i r hr; exact absurd ⟨k, hk, hr⟩ (h r)
      · rfl
    · rfl
  · rintro h r ⟨k, hk, hp⟩
    rw [hk] at h
    dsimp only at h
    rw [hp] at h
    cases h

theorem finishedOk_some {L : List Entry} {t : Nat}
    (h : L.any (fun e => match e with | .finished u (.ok _) => u == t | _ => false) = true) :
    ∃ x, .finished t (.ok x) ∈ L := by
  rw [List.any_eq_true] at h
  obtain ⟨e, he, h⟩ := h
  cases e with
  | finished u r =>
    cases r with
    | ok x =>
      have : u = t := by simpa using h
      exact ⟨x, this ▸ he⟩
    | error e => cases h
  | _ => cases h

/-- **C68.** A broadcast or multicast returns at least 200 ms after the radio accepted it: at every
moment `es1` at which its API request was not yet over, at most the time of its return minus 200 ms
had passed. (Until it returns it keeps its place, see C40.) -/
theorem c68_pause (es1 es2 : List AppEvent) (n i t : Nat) (c : Call) (m : String)
    (hu : Unconfirmed c) (hc : IsCall (AppSys.init.run (es1 ++ es2)) n c)
    (hq : RequestOf (AppSys.init.run (es1 ++ es2)) n i t)
    (hr : EndedWith (AppSys.init.run (es1 ++ es2)) n (.returned 0 m))
    (hm : m = "message send success" ∨ m = "broadcast send success")
    (hf : ∀ r, .finished t r ∉ ((AppSys.init.run es1).api i).log) :
    ((AppSys.init.run es1).api i).now + 200 ≤ ((AppSys.init.run (es1 ++ es2)).api i).now := by
  obtain ⟨k, hk, rfl⟩ := hc
  obtain ⟨k', hk', hran⟩ := hq
  rw [hk] at hk'; cases hk'
  obtain ⟨k', hk', hpc⟩ := hr
  rw [hk] at hk'; cases hk'
  have hs := settles_iff.mpr hu
  have hsucc : Result.returned 0 m = k.call.success := by
    have he := ended_inv (ainv_run (es1 ++ es2)) hk hpc
    generalize hres : Result.returned 0 m = r at he
    cases he with
    | accepted => rfl
    | failed j u e _ _ =>
      exfalso
      revert hres
      generalize k.call = c
      intro hres
      unfold Call.failure at hres
      split at hres
      · simp only [Result.returned.injEq] at hres
        rw [hres.2] at hm; revert hm; decide
      · simp only [Result.returned.injEq] at hres
        rw [hres.2] at hm; revert hm; decide
      · simp only [Result.returned.injEq] at hres
        rw [hres.2] at hm; revert hm; decide
      · cases hres
    | cancelled _ => cases hres
    | rejected e _ _ => cases hres
  have h := slept_run es2 _ (ainv_run es1) (slept_start (ainv_run es1))
  rw [← app_run_append] at h
  exact h.done k (List.mem_of_getElem? hk) i t hran hf hs (by rw [hpc, hsucc])

/-- **C68.** Everything else ends as soon as its API request is over: unicast requests and permit
join, and broadcasts and multicasts whose request failed. -/
theorem c68_at_once (es : List AppEvent) (n i t : Nat) (c : Call) (r : Except PyErr (Option Obj))
    (hc : IsCall (AppSys.init.run es) n c) (hq : RequestOf (AppSys.init.run es) n i t)
    (hf : .finished t r ∈ ((AppSys.init.run es).api i).log)
    (hu : ¬ Unconfirmed c ∨ ∃ e, r = .error e) : ∃ x, EndedWith (AppSys.init.run es) n x := by
  obtain ⟨k, hk, rfl⟩ := hc
  obtain ⟨k', hk', hran⟩ := hq
  rw [hk] at hk'; cases hk'
  have hi := ainv_run es
  have hm := List.mem_of_getElem? hk
  have hp := (hi.tasks k hm).pc
  have hs := rested_run es k hm
  obtain ⟨B, hB, hBp⟩ := ((hi.api i).log.fin t r).mp hf
  rcases hpc : k.pc with ⟨o, w⟩ | ⟨j, u⟩ | ⟨j, w⟩ | x
  · rw [hpc] at hp; rw [hp.1] at hran; cases hran
  · exfalso
    rw [hpc] at hp
    have hp : k.ran = some (j, u) := hp
    rw [hran] at hp; cases hp
    have := congrArg AppTask.pc hs
    unfold AppTask.settle at this
    rw [hpc] at this; dsimp only at this; rw [hB] at this; dsimp only at this; rw [hBp] at this
    rcases r with e | y
    · cases this
    · dsimp only at this
      split at this <;> cases this
  · exfalso
    rw [hpc] at hp
    obtain ⟨h1, u, y, h2, h3⟩ := hp
    rw [hran] at h2; cases h2
    rcases hu with hu | ⟨e, he⟩
    · exact hu (settles_iff.mp h1)
    · obtain ⟨B', hB', hBp'⟩ := ((hi.api i).log.fin t _).mp h3
      rw [hB] at hB'; cases hB'
      rw [hBp, he] at hBp'; cases hBp'
  · exact ⟨x, k, hk, hpc⟩

/-- **C68.** A broadcast or multicast that the radio accepted returns after 200 ms. -/
theorem c68_returns (es : List AppEvent) (n i t : Nat) (c : Call) (x : Option Obj)
    (hc : IsCall (AppSys.init.run es) n c) (hq : RequestOf (AppSys.init.run es) n i t)
    (hf : .finished t (.ok x) ∈ ((AppSys.init.run es).api i).log)
    (hn : ∀ r, ¬ EndedWith (AppSys.init.run es) n r) :
    ∃ m, EndedWith (AppSys.init.run (es ++ [.api i (.tick 200), .wakeUp n])) n (.returned 0 m) := by
  obtain ⟨k, hk, rfl⟩ := hc
  have hu : Unconfirmed k.call := by
    refine Classical.byContradiction fun h => ?_
    obtain ⟨y, hy⟩ := c68_at_once es n i t k.call (.ok x) ⟨k, hk, rfl⟩ hq hf (.inl h)
    exact hn y hy
  obtain ⟨k', hk', hran⟩ := hq
  rw [hk] at hk'; cases hk'
  have hi := ainv_run es
  have hm := List.mem_of_getElem? hk
  have hp := (hi.tasks k hm).pc
  have hs := rested_run es k hm
  have hw := short_run es k hm
  obtain ⟨B, hB, hBp⟩ := ((hi.api i).log.fin t _).mp hf
  have hst := settles_iff.mpr hu
  obtain ⟨w, hpc⟩ : ∃ w, k.pc = .sleeping i w := by
    rcases hpc : k.pc with ⟨o, w⟩ | ⟨j, u⟩ | ⟨j, w⟩ | y
    · rw [hpc] at hp; rw [hp.1] at hran; cases hran
    · exfalso
      rw [hpc] at hp
      have hp : k.ran = some (j, u) := hp
      rw [hran] at hp; cases hp
      have := congrArg AppTask.pc hs
      unfold AppTask.settle at this
      rw [hpc] at this; dsimp only at this; rw [hB] at this; dsimp only at this; rw [hBp] at this
      dsimp only at this
      split at this <;> cases this
    · rw [hpc] at hp
      obtain ⟨_, u, y, h2, _⟩ := hp
      rw [hran] at h2; cases h2
      exact ⟨w, rfl⟩
    · exact absurd ⟨k, hk, hpc⟩ (hn y)
  have hle := hw i w hpc
  obtain ⟨m, hsucc⟩ : ∃ m, k.call.success = .returned 0 m := by
    revert hu
    generalize k.call = c
    intro hu
    cases c with
    | request => exact hu.elim
    | permit => exact hu.elim
    | mrequest => exact ⟨_, rfl⟩
    | broadcast => exact ⟨_, rfl⟩
  refine ⟨m, ?_⟩
  rw [show es ++ [.api i (.tick 200), .wakeUp n] = (es ++ [.api i (.tick 200)]) ++ [.wakeUp n] by simp,
    app_run_snoc, app_run_snoc]
  generalize AppSys.init.run es = s at *
  -- the call sleeps on
  have hk2 : (s.step (.api i (.tick 200))).tasks[n]? = some k := by
    show (s.apiStep i (.tick 200)).tasks[n]? = _
    unfold AppSys.apiStep
    rw [settle_get { s with api := upd s.api i ((s.api i).step (.tick 200)) } n k hk]
    congr 1
    refine settle_congr (a := s.api) (fun j => ?_) hs
    by_cases hij : j = i
    · subst hij
      show (s.api j).tasks = (upd s.api j ((s.api j).step (.tick 200)) j).tasks
      rw [upd_same]
      rfl
    · exact congrArg Api.tasks (upd_other s.api ((s.api i).step (.tick 200)) hij).symm
  have hnow : ((s.step (.api i (.tick 200))).api i).now = (s.api i).now + 200 := by
    show ((s.apiStep i (.tick 200)).api i).now = _
    rw [apiStep_api, if_pos rfl]; rfl
  refine ⟨{ k with pc := .done (.returned 0 m) }, ?_, rfl⟩
  generalize s.step (.api i (.tick 200)) = s' at *
  rw [AppSys.step, hk2]
  dsimp only
  rw [hpc]
  dsimp only
  rw [if_pos (by omega), hsucc]
  show (s'.tasks.set n _)[n]? = _
  rw [List.getElem?_set_self (List.getElem?_eq_some_iff.mp hk2).1]

/-- A broadcast (on/off toggle, to all devices that are awake), accepted after 50 ms. -/
def exAll : List AppEvent :=
  exStarted ++ [.call (.broadcast 260 6 1 255 0 7 [1, 7, 2] 0xFFFD), .enter 0,
    .api 1 (.tick 50), .api 1 (.frame (Frame.of .SRSP .AF 2 [0])), .api 1 (.wake 0)]

/-- It returns 200 ms later. -/
example : ∃ m, EndedWith (AppSys.init.run (exAll ++ [.api 1 (.tick 200), .wakeUp 0])) 0
    (.returned 0 m) :=
  c68_returns exAll 0 1 0 (.broadcast 260 6 1 255 0 7 [1, 7, 2] 0xFFFD) _ (isCall_iff.mpr (by decide +kernel))
    (requestOf_iff.mpr (by decide +kernel)) (finishedOk_some (by decide +kernel)).choose_spec
    (notEnded_iff.mpr (by decide +kernel))

/-- The bound of `c68_pause` is reached. -/
example : ((AppSys.init.run (exStarted ++ [.call (.broadcast 260 6 1 255 0 7 [1, 7, 2] 0xFFFD),
      .enter 0, .api 1 (.tick 50)])).api 1).now + 200 ≤
    ((AppSys.init.run ((exStarted ++ [.call (.broadcast 260 6 1 255 0 7 [1, 7, 2] 0xFFFD),
      .enter 0, .api 1 (.tick 50)]) ++ [.api 1 (.frame (Frame.of .SRSP .AF 2 [0])), .api 1 (.wake 0),
      .api 1 (.tick 200), .wakeUp 0])).api 1).now :=
  c68_pause _ _ 0 1 0 (.broadcast 260 6 1 255 0 7 [1, 7, 2] 0xFFFD) "broadcast send success" trivial
    (isCall_iff.mpr (by decide +kernel)) (requestOf_iff.mpr (by decide +kernel))
    (endedWith_iff.mpr (by decide +kernel)) (.inr rfl) (openIn_iff.mp (by decide +kernel))

/-- The unicast request of C41's example returns as soon as it is accepted. -/
example : ∃ x, EndedWith (AppSys.init.run (exStarted ++ [.call exToggle, .enter 0,
    .api 1 (.frame (exDataRsp 0)), .api 1 (.wake 0)])) 0 x :=
  c68_at_once _ 0 1 0 exToggle _ (isCall_iff.mpr (by decide +kernel))
    (requestOf_iff.mpr (by decide +kernel)) (finishedOk_some (by decide +kernel)).choose_spec
    (.inl fun h => h)

end Zcc
