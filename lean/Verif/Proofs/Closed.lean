import Verif.Proofs.Pairing
import Verif.Proofs.Waiter

/-!
# The API without a port
-/

namespace Zcc
open Spec

/-- Nothing is written without a port, and the port stays as it is. -/
def Mute (s s' : Api) : Prop :=
  s'.uart = s.uart ∧ ∀ t b, .sent t b ∈ s'.log → .sent t b ∈ s.log ∨ s.uart = true

theorem Mute.refl (s : Api) : Mute s s := ⟨rfl, fun _ _ h => .inl h⟩

theorem Mute.trans {a b c : Api} (h : Mute a b) (h' : Mute b c) : Mute a c := by
  refine ⟨h'.1.trans h.1, fun t x hx => ?_⟩
  rcases h'.2 t x hx with h1 | h1
  · exact h.2 t x h1
  · rw [h.1] at h1; exact .inr h1

theorem Mute.same {s s' : Api} (hu : s'.uart = s.uart) (hl : s'.log = s.log) : Mute s s' :=
  ⟨hu, fun t b h => .inl (by rw [hl] at h; exact h)⟩

theorem Mute.one {s s' : Api} (hu : s'.uart = s.uart) (x : Entry) (hx : ∀ t b, x ≠ .sent t b)
    (hl : s'.log = s.log ++ [x]) : Mute s s' := by
  refine ⟨hu, fun t b h => .inl ?_⟩
  rw [hl, List.mem_append, List.mem_singleton] at h
  exact h.resolve_right fun e => hx t b e.symm

theorem mute_setPc (s : Api) (t : Nat) (pc : Pc) : Mute s (s.setPc t pc) := by
  unfold Api.setPc
  split
  · exact .same rfl rfl
  · exact .refl _

theorem mute_finish (s : Api) (t : Nat) (r : Except PyErr (Option Obj)) : Mute s (s.finish t r) := by
  refine .one ?_ (.finished t r) (by simp) rfl
  exact (mute_setPc s t _).1

theorem mute_waitFor (s : Api) (m : Matcher) (to : Nat) (q : Option Int) :
    Mute s (s.waitFor m to q).2 :=
  .one rfl _ (by simp) rfl

theorem mute_uartSend {s s' : Api} {t : Nat} {f : Frame} (h : s.uartSend t f = .ok s') :
    Mute s s' := by
  unfold Api.uartSend at h
  split at h
  · rename_i hu
    split at h
    · cases h
    · cases h; exact ⟨rfl, fun _ _ _ => .inr hu⟩
  · cases h

theorem mute_start (s : Api) (t : Nat) (o : Obj) : Mute s (s.start t o) := by
  unfold Api.start
  split
  · exact mute_finish _ _ _
  · split
    · rename_i m to _
      dsimp only
      split
      · exact (mute_waitFor s m to none).trans (mute_finish _ _ _)
      · rename_i h
        exact ((mute_waitFor s m to none).trans (mute_uartSend h)).trans (mute_setPc _ _ _)
    · split
      · split
        · exact mute_finish _ _ _
        · rename_i h; exact (mute_uartSend h).trans (mute_finish _ _ _)
      · exact mute_finish _ _ _

theorem mute_grant (s : Api) : Mute s s.grant := by
  unfold Api.grant
  split
  · split
    · rename_i t q _ _ _ k _
      exact (Mute.trans (b := { s with holder := some t, queue := q }) (.same rfl rfl)
        (mute_setPc _ _ _)).trans (mute_start _ _ _)
    · exact .refl _
  · exact .refl _

theorem mute_setResult (s : Api) (w : Nat) (o : Obj) : Mute s (s.setResult w o) := by
  unfold Api.setResult
  split
  · exact .one rfl _ (by simp) rfl
  · exact .refl _

theorem mute_frame (s : Api) (f : Frame) : Mute s (s.dataReceived f).1 := by
  refine ⟨(dataReceived_fields s f).2.2.2.2.2.2.2.2, fun t b h => .inl ?_⟩
  let g : Entry → Option (Nat × List UInt8) := fun e => match e with
    | .sent t b => some (t, b)
    | _ => none
  have key : ∀ L : List Entry, .sent t b ∈ L ↔ (t, b) ∈ L.filterMap g := by
    intro L
    rw [List.mem_filterMap]
    constructor
    · intro h; exact ⟨_, h, rfl⟩
    · rintro ⟨x, hx, he⟩
      cases x <;> simp [g] at he
      rw [← he.1, ← he.2]; exact hx
  rcases hd : Obj.fromUnpiFrame f with e | o
  · unfold Api.dataReceived at h
    rw [hd] at h
    exact h
  · rw [key, dataReceived_filterMap g (fun _ _ => rfl) (fun _ => rfl) s hd, fm_none rfl, ← key] at h
    exact h

theorem mute_step (s : Api) (e : Event) (he : ∀ b, e ≠ .setUart b) : Mute s (s.step e) := by
  cases e with
  | submit o w x =>
    rw [Api.step]
    have h : Mute s (s.enqueue o w x) := .one rfl _ (by simp) rfl
    split
    · exact h.trans (mute_grant _)
    · exact h
  | grant => exact mute_grant s
  | frame f => exact mute_frame s f
  | wake t =>
    rw [Api.step]
    split
    · split
      · split
        · unfold Api.conclude
          split
          · split
            · exact mute_finish _ _ _
            · split
              · exact mute_finish _ _ _
              · rename_i v _
                split
                · exact ((Mute.one (s := s) (s' := s.drop v) rfl (.dropped v) (by simp) rfl).trans
                    (mute_setResult _ _ _)).trans (mute_finish _ _ _)
                · exact mute_finish _ _ _
          · exact mute_finish _ _ _
        · exact .refl _
      · exact .refl _
    · exact .refl _
  | timeout t =>
    rw [Api.step]
    split
    · split
      · split
        · exact (mute_finish s t (.error .timeoutError)).trans (.same rfl rfl)
        · exact .refl _
      · exact .refl _
    · exact .refl _
  | cancel t =>
    rw [Api.step]
    split
    · split
      · exact .one (mute_setPc s t _).1 (.finished t (.error .cancelledError)) (by simp) rfl
      · exact (mute_finish s t (.error .cancelledError)).trans (.same rfl rfl)
      · exact .refl _
    · exact .refl _
  | timer w =>
    rw [Api.step]
    split
    · unfold Api.timerCallback
      split
      · exact .same rfl rfl
      · exact .one rfl (.dropped w) (by simp) rfl
    · exact .refl _
  | tick ms => exact .same rfl rfl
  | setUart b => exact absurd rfl (he b)
  | register m to q => exact (mute_waitFor s m to q).trans (.same rfl rfl)
  | registerResponse o q =>
    rw [Api.step]
    unfold Api.createResponseWaiter
    split
    · exact .refl _
    · exact .refl _
    · exact (mute_waitFor s _ _ _).trans (.same rfl rfl)
  | abandon w =>
    rw [Api.step]
    split
    · exact .same rfl rfl
    · exact .refl _

theorem portOpen_snoc (es : List Event) (e : Event) :
    portOpen (es ++ [e]) = match e with | .setUart b => b | _ => portOpen es := by
  unfold portOpen
  rw [List.foldl_append]
  rfl

theorem uart_run (es : List Event) : (Api.init.run es).uart = portOpen es := by
  suffices h : ∀ (es : List Event) (s : Api), (s.run es).uart =
      es.foldl (fun b e => match e with | .setUart b' => b' | _ => b) s.uart from h es Api.init
  intro es
  induction es with
  | nil => intro s; rfl
  | cons e es ih =>
    intro s
    have := ih (s.step e)
    refine this.trans ?_
    rw [List.foldl_cons]
    congr 1
    by_cases he : ∃ b, e = .setUart b
    · obtain ⟨b, rfl⟩ := he; rfl
    · rw [(mute_step s e fun b h => he ⟨b, h⟩).1]
      cases e <;> first | rfl | exact absurd ⟨_, rfl⟩ he

end Zcc
