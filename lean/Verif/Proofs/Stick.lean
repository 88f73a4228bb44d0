import Verif.Proofs.StartCrash
import Verif.Proofs.StartTail

/-!
# A stick that works

The theorems about start-up speak about every history of a stick that stores what is written
(`Spec.Stores`, `Spec.Genuine`). Here is such a stick; the examples beside the theorems run the
start-up coroutine against it.
-/

namespace Zcc.Stick

open Zcc Spec

/-- A synchronous response with status 0. -/
def reply (payload : Payload) : Option Obj :=
  some { commandType := .SRSP, subsystem := .SYS, command := "", commandId := 0,
         payload := ("status", .int 0) :: payload, parameters := [] }

/-- The content of an item as it is returned. -/
def content (m : Nv) (i : Nat) : Payload := [("value", .bytes ((m i).getD []))]

/-- `m` with item `i` set. -/
def set (m : Nv) (i : Nat) (v : List UInt8) : Nv := fun j => if j = i then some v else m j

/-- What the stick answers to a frame, and its memory afterwards. A reset changes nothing. -/
def serve (m : Nv) (f : Frame) : Payload × Nv :=
  match f.subsystem, f.commandId, f.data with
  | .SYS, 0x00, _ => ([], m)
  | .SYS, 0x08, [lo, hi, _] => (content m (lo.toNat + 256 * hi.toNat), m)
  | .SYS, 0x09, lo :: hi :: _ :: len :: value =>
    ([], set m (lo.toNat + 256 * hi.toNat) (value.take len.toNat))
  | .SYS, 0x07, lo :: hi :: _ :: _ :: len :: value =>
    ([], if (m (lo.toNat + 256 * hi.toNat)).isSome then m
         else set m (lo.toNat + 256 * hi.toNat) (value.take len.toNat))
  | .SAPI, 0x04, [id] => (content m id.toNat, m)
  | .SAPI, 0x05, id :: len :: value => ([], set m id.toNat (value.take len.toNat))
  | _, _, _ => ([("devicestate", .int 9), ("ieeeaddr", .bytes [1, 2, 3, 4, 5, 6, 7, 8]),
      ("shortaddr", .int 0), ("product", .int 1)], m)

/-- The memory after an operation that sends this frame (or none). -/
def after (m : Nv) : Option Frame → Nv
  | none => m
  | some f => (serve m f).2

/-- What `request` returns. -/
def result (m : Nv) (expected : List Int) : Option Frame → Except PyErr (Option Obj)
  | none => .error .typeError
  | some f => if 0 ∈ expected then .ok (reply (serve m f).1) else .error (.commandError 0)

/-- What an operation returns, and the memory afterwards. The stick reports endpoint 1 as active. -/
def answer (m : Nv) : (o : Op) → Except PyErr o.Ans
  | .request sub command payload expected =>
    result m (expected.getD [0]) (Op.request sub command payload expected).frame
  | .spawn .. => .ok ()
  | .waitFor .. => .ok (0 : Nat)
  | .wait _ => .ok ({ commandType := .AREQ, subsystem := .ZDO, command := "", commandId := 0,
                      payload := [("activeeplist", .ints [1])], parameters := [] } : Obj)
  | .connect => .ok ()
  | .semaphore _ => .ok ()
  | .coordinator .. => .ok ()

/-- The first `n` operations of a coroutine with this stick: what happened, what is left of the
coroutine, and the memory. -/
def run {α : Type} : Nat → Prog α → Nv → List Act × Prog α × Nv
  | n + 1, .call o k, m =>
    let next := run n (k (answer m o)) (after m o.frame)
    (⟨o, answer m o⟩ :: next.1, next.2)
  | _, p, m => ([], p, m)

theorem run_feed {α : Type} (n : Nat) (p : Prog α) (m : Nv) :
    p.feed (run n p m).1 = some (run n p m).2.1 := by
  induction n generalizing p m with
  | zero => simp [run]
  | succ n ih =>
    cases p with
    | ret a => simp [run]
    | raise e => simp [run]
    | call o k => simp only [run, feed_call]; exact ih _ _

theorem serve_step (m : Nv) (a : Act) (f : Frame) (hf : a.op.frame = some f)
    (hr : ∀ o, response a = some o → o.payload = ("status", .int 0) :: (serve m f).1) :
    NvStep (fun m m' => m' = m) m a (serve m f).2 := by
  have hset : ∀ i v x, Written m a i x v (set m i v) := fun i v x =>
    ⟨fun j hj => by simp [set, hj], fun _ _ => by simp [set]⟩
  have hval : ∀ {i : Nat} {o : Obj}, o.payload = ("status", .int 0) :: content m i →
      o.payload.lookup "value" = some (.bytes ((m i).getD [])) := fun h => by rw [h]; rfl
  unfold NvStep
  simp only [hf]
  unfold serve at hr ⊢
  revert hr
  generalize f.subsystem = sub
  generalize f.commandId = id
  generalize f.data = data
  intro hr
  split
  · rfl
  · exact ⟨rfl, fun o _ ho => hval (hr o ho)⟩
  · exact hset _ _ _
  · split
    · next h => exact if_pos h
    · next lo hi _ _ len value h =>
      have he : (if (m (lo.toNat + 256 * hi.toNat)).isSome then m
        else set m (lo.toNat + 256 * hi.toNat) (value.take len.toNat)) =
        set m (lo.toNat + 256 * hi.toNat) (value.take len.toNat) := if_neg h
      have hw := hset (lo.toNat + 256 * hi.toNat) (value.take len.toNat) 0
      rewrite [← he] at hw
      exact hw
  · exact ⟨rfl, fun o ho => hval (hr o ho)⟩
  · exact hset _ _ _
  · next h1 h2 h3 h4 h5 h6 =>
    split
    · exact absurd rfl (h1 rfl)
    · exact absurd rfl (h2 _ _ _ rfl rfl)
    · exact absurd rfl (h3 _ _ _ _ _ rfl rfl)
    · exact absurd rfl (h4 _ _ _ _ _ _ rfl rfl)
    · exact absurd rfl (h5 _ rfl rfl)
    · exact absurd rfl (h6 _ _ _ rfl rfl)
    · exact fun _ _ => rfl

theorem result_some (m : Nv) (e : List Int) (f : Frame) :
    result m e (some f) = if 0 ∈ e then .ok (reply (serve m f).1) else .error (.commandError 0) := rfl

theorem result_payload {m : Nv} {e : List Int} {f : Frame} {o : Obj}
    (h : result m e (some f) = .ok (some o)) :
    o.payload = ("status", .int 0) :: (serve m f).1 ∧ 0 ∈ e := by
  rw [result_some] at h
  by_cases h0 : 0 ∈ e
  · rw [if_pos h0] at h
    cases h
    exact ⟨rfl, h0⟩
  · rw [if_neg h0] at h
    cases h

theorem response_request {sub : Subsystem} {command : String} {p : Payload} {e : Option (List Int)}
    {x : Except PyErr (Option Obj)} {o : Obj}
    (h : response ⟨.request sub command p e, x⟩ = some o) : x = .ok (some o) := by
  cases x with
  | error e => cases h
  | ok y => exact congrArg _ h

theorem answer_step (m : Nv) (o : Op) :
    NvStep (fun m m' => m' = m) m ⟨o, answer m o⟩ (after m o.frame) := by
  cases hf : o.frame with
  | none => unfold NvStep; rw [hf]; rfl
  | some f =>
    refine serve_step m ⟨o, answer m o⟩ f hf fun r hr => ?_
    cases o with
    | request sub command payload expected =>
      have h : result m (expected.getD [0]) (Op.request sub command payload expected).frame =
        .ok (some r) := response_request hr
      rw [hf] at h
      exact (result_payload h).1
    | spawn => cases hr
    | waitFor => cases hf
    | wait => cases hf
    | connect => cases hf
    | semaphore => cases hf
    | coordinator => cases hf

/-- The stick stores what is written. -/
theorem run_stores {α : Type} (n : Nat) (p : Prog α) (m : Nv) :
    Stores (fun m m' => m' = m) m (run n p m).1 (run n p m).2.2 := by
  induction n generalizing p m with
  | zero => cases p <;> rfl
  | succ n ih =>
    cases p with
    | ret a => rfl
    | raise e => rfl
    | call o k => exact ⟨after m o.frame, answer_step m o, ih _ _⟩

theorem answer_genuine (m : Nv) (o : Op) : Genuine ⟨o, answer m o⟩ := by
  cases o with
  | request sub command payload expected =>
    have h : answer m (.request sub command payload expected) =
      result m (expected.getD [0]) (Op.request sub command payload expected).frame := rfl
    revert h
    generalize answer m (.request sub command payload expected) = x
    generalize (Op.request sub command payload expected).frame = fr
    intro h
    cases fr with
    | none =>
      refine ⟨fun h' => ?_, fun o z h' => ?_⟩
      · rw [h'] at h; cases h
      · rw [h'] at h; cases h
    | some f =>
      refine ⟨fun h' => ?_, fun o z h' _ hz => ?_⟩
      · rw [h', result_some] at h
        by_cases h0 : 0 ∈ expected.getD [0]
        · rw [if_pos h0] at h; cases h
        · rw [if_neg h0] at h; cases h
      · rw [h'] at h
        obtain ⟨h1, h2⟩ := result_payload h.symm
        rw [h1] at hz
        cases hz
        exact h2
  | _ => trivial

theorem run_genuine {α : Type} (n : Nat) (p : Prog α) (m : Nv) : ∀ a ∈ (run n p m).1, Genuine a := by
  induction n generalizing p m with
  | zero => cases p <;> exact fun a ha => absurd ha List.not_mem_nil
  | succ n ih =>
    cases p with
    | ret a => exact fun a ha => absurd ha List.not_mem_nil
    | raise e => exact fun a ha => absurd ha List.not_mem_nil
    | call o k =>
      intro a ha
      rcases List.mem_cons.mp ha with rfl | ha
      · exact answer_genuine m o
      · exact ih _ _ a ha

/-- The coroutine returned this. -/
def returned {α : Type} [DecidableEq α] (a : α) : Prog α → Bool
  | .ret b => decide (b = a)
  | _ => false

theorem run_returns {α : Type} [DecidableEq α] {n : Nat} {p : Prog α} {m : Nv} {a : α}
    (h : returned a (run n p m).2.1 = true) : Returns p (run n p m).1 a := by
  have hf := run_feed n p m
  unfold Returns
  rw [hf]
  cases hp : (run n p m).2.1 with
  | ret b =>
    rw [hp] at h
    rw [of_decide_eq_true h]
  | raise e => rw [hp] at h; cases h
  | call o k => rw [hp] at h; cases h

theorem run_runs {α : Type} (n : Nat) (p : Prog α) (m : Nv) : Runs p (run n p m).1 :=
  ⟨_, run_feed n p m⟩

/-- A memory given by a list. -/
def memory (l : List (Nat × List UInt8)) : Nv := fun i => l.lookup i

end Zcc.Stick
