import Verif.Spec.Empty
import Verif.Proofs.Sizes
import Verif.Props.Handling
import Verif.Props.Start

/-! C90: messages without data. -/

namespace Zcc
open Spec

/-! ## C90 -/

/-- The lists without parameters among the received ones of the table. -/
theorem table_empty_dec : ∀ s ∈ allSubsystems, ∀ cs ∈ definition s, ∀ c ∈ cs,
    c.response.any List.isEmpty = emptyMessages.contains (CommandType.SRSP, s, c.id) ∧
    (c.type = .AREQ → c.request.isEmpty = emptyMessages.contains (CommandType.AREQ, s, c.id)) := by
  decide +kernel

theorem table_empty {s : Subsystem} {c : Cmd} (h : InTable s c) :
    (c.response = some [] ↔ (CommandType.SRSP, s, c.id) ∈ emptyMessages) ∧
    (c.type = .AREQ → (c.request = [] ↔ (CommandType.AREQ, s, c.id) ∈ emptyMessages)) := by
  obtain ⟨cs, h1, h2⟩ := h
  obtain ⟨t1, t2⟩ := table_empty_dec s (mem_allSubsystems s) cs h1 c h2
  refine ⟨?_, fun ht => ?_⟩
  · rw [← List.contains_iff_mem, ← t1]
    rcases c.response with _ | r
    · simp
    · cases r <;> simp
  · rw [← List.contains_iff_mem, ← t2 ht]
    simp

theorem table_empty_in : ∀ x ∈ emptyMessages, ∃ cs, definition x.2.1 = some cs ∧
    ∃ c ∈ cs, c.id = x.2.2 := by
  have : ∀ x ∈ emptyMessages, ((definition x.2.1).getD []).any (fun c => c.id == x.2.2) = true := by
    decide +kernel
  intro x hx
  have h := this x hx
  rcases hd : definition x.2.1 with _ | cs
  · rw [hd] at h; simp at h
  · rw [hd] at h
    simp only [Option.getD_some, List.any_eq_true] at h
    obtain ⟨c, hc, hi⟩ := h
    exact ⟨cs, rfl, c, hc, by simpa using hi⟩

/-- Without bytes there are values for no parameters only. -/
theorem fields_nil {prev : Option Val} (hprev : ∀ v, prev ≠ some v) {ps : Params} {vs : List Val}
    (h : Fields prev ps [] vs) : ps = [] := by
  cases ps with
  | nil => rfl
  | cons p ps =>
    obtain rfl : prev = none := by
      cases prev with
      | none => rfl
      | some v => exact absurd rfl (hprev v)
    obtain ⟨a, b, v, vs', hx, -, hf, -⟩ := h
    obtain ⟨rfl, -⟩ := List.append_eq_nil_iff.mp hx.symm
    obtain ⟨n, t⟩ := p
    cases t <;> simp [Field] at hf

/-- **C90.** A response or indication without data is understood exactly if it is one of eight. -/
theorem c90_which (f : Frame) (hr : FromRadio f) (hd : f.data = []) :
    (∃ o, Obj.fromUnpiFrame f = .ok o) ↔
      (f.commandType, f.subsystem, f.commandId) ∈ emptyMessages := by
  constructor
  · rintro ⟨o, ho⟩
    obtain ⟨c, ps, x, rest, vs, hc, hid, hp, hx, hF, -⟩ := decode_iff.mp ho
    rw [hd] at hx
    obtain ⟨rfl, -⟩ := List.append_eq_nil_iff.mp hx.symm
    obtain rfl := fields_nil (by simp) hF
    obtain ⟨t1, t2⟩ := table_empty hc
    unfold ParamsOf at hp
    rcases hr with hr | ⟨hr, d, hdt, hdid, hda⟩
    · rw [if_pos hr] at hp
      rw [hr, ← hid]
      exact t1.mp hp
    · rw [if_neg (by rw [hr]; decide)] at hp
      obtain rfl := inTable_same hdt hc (hdid.trans hid.symm)
      rw [hr, ← hid]
      exact (t2 hda).mp hp
  · intro hm
    obtain ⟨cs, h1, c, h2, h3⟩ := table_empty_in _ hm
    dsimp only at h1 h3
    obtain ⟨t1, t2⟩ := table_empty (c := c) ⟨cs, h1, h2⟩
    have hp : ParamsOf c f.commandType [] := by
      unfold ParamsOf
      rcases hr with hr | ⟨hr, d, hdt, hdid, hda⟩
      · rw [if_pos hr]
        exact t1.mpr (by rw [h3, ← hr]; exact hm)
      · obtain rfl := inTable_same hdt ⟨cs, h1, h2⟩ (hdid.trans h3.symm)
        rw [if_neg (by rw [hr]; decide)]
        exact (t2 hda).mpr (by rw [h3, ← hr]; exact hm)
    exact ⟨_, decode_iff.mpr ⟨c, [], [], [], [], ⟨cs, h1, h2⟩, h3, hp, by rw [hd]; rfl, ⟨rfl, rfl⟩, rfl⟩⟩

/-- The response to SAPI_ALLOW_BIND is understood without data, the one to SYS_PING (two bytes) is
not. -/
example : (∃ o, Obj.fromUnpiFrame (Frame.of .SRSP .SAPI 2 []) = .ok o) ∧
    ¬ ∃ o, Obj.fromUnpiFrame (Frame.of .SRSP .SYS 1 []) = .ok o :=
  ⟨(c90_which (Frame.of .SRSP .SAPI 2 []) (.inl rfl) rfl).mpr (by decide),
   fun h => absurd ((c90_which (Frame.of .SRSP .SYS 1 []) (.inl rfl) rfl).mp h) (by decide)⟩

/-- **C90.** None of them has an effect on the application. -/
theorem c90_no_effect (es : List Event) (hreg : StartupWaiters es) (a : App) (f : Frame)
    (hr : FromRadio f) (hd : f.data = []) (ho : ∃ o, Obj.fromUnpiFrame f = .ok o) :
    (receive (Api.init.run es) a f).2 = ⟨a, [], none⟩ := by
  have hm := (c90_which f hr hd).mp ho
  obtain ⟨o, ho⟩ := ho
  obtain ⟨q, hq⟩ := c27_matching_never_raises es hreg f o ho
  obtain ⟨c, ps, x, rest, vs, hc, hid, hp, hx, hF, rfl⟩ := decode_iff.mp ho
  rw [hd] at hx
  obtain ⟨rfl, -⟩ := List.append_eq_nil_iff.mp hx.symm
  obtain rfl := fields_nil (by simp) hF
  obtain ⟨-, rfl⟩ := hF
  have key : ∀ q', a.handleZnp
      { commandType := f.commandType, subsystem := f.subsystem, command := c.name, commandId := c.id,
        payload := [], parameters := [], sequence := q' } = ⟨a, [], none⟩ := by
    intro q'
    unfold App.handleZnp
    split
    · rfl
    · rename_i ht
      have hs : f.subsystem ≠ .ZDO ∧ f.subsystem ≠ .AF := by
        have ht' : f.commandType = .AREQ := Classical.not_not.mp ht
        rw [ht'] at hm
        simp only [emptyMessages, List.mem_cons, Prod.mk.injEq, List.not_mem_nil, or_false,
          reduceCtorEq, false_and, false_or, true_and] at hm
        rcases hm with ⟨h, -⟩ | ⟨h, -⟩ <;> rw [h] <;> decide
      simp [Obj.toUnpiFrame, writeParameters, hs.1, hs.2, App.dispatch]
      rfl
  unfold receive
  rcases hrr : (Api.init.run es).dataReceived f with ⟨s, e | o'⟩
  · rw [hrr] at hq; simp at hq
  · rw [hrr] at hq
    simp only [Except.ok.injEq] at hq
    subst hq
    exact key q

example : (receive (Api.init.run []) exApp (Frame.of .AREQ .UTIL 0xE0 [])).2 = ⟨exApp, [], none⟩ :=
  c90_no_effect [] (by intro m to q h; simp at h) exApp (Frame.of .AREQ .UTIL 0xE0 [])
    (.inr ⟨rfl, { name := "syncReq", id := 0xE0, type := .AREQ, request := [], response := none },
      ⟨_, rfl, by decide +kernel⟩, rfl, rfl⟩) rfl ⟨_, rfl⟩

theorem startFrames_nonempty (version : Int) (o : Options) (g : Nat) :
    (startFrames version o g).all (fun f => !emptyMessages.contains (CommandType.SRSP, f.subsystem, f.commandId)) =
      true := by
  unfold startFrames readFrames initFrames initBody keyRead
  by_cases h1 : version = 1
  · rw [if_pos h1, if_pos (c := version = 1 ∨ version = 2) (.inl h1)]
    rfl
  · rw [if_neg h1]
    by_cases h2 : version = 2
    · rw [if_pos (c := version = 1 ∨ version = 2) (.inr h2)]
      rfl
    · rw [if_neg (c := version = 1 ∨ version = 2) (fun h => h.elim h1 h2)]
      rfl

/-- **C90.** None of them is the response to a command of start-up. -/
theorem c90_startup {version : Int} {o : Options} (ho : WellFormed o) {g : Nat} (hg : g < 65536)
    {b : Bool} {h : List Act} (hr : Runs (startZnp version o g b) h) :
    ∀ f ∈ frames h, (CommandType.SRSP, f.subsystem, f.commandId) ∉ emptyMessages := by
  intro f hf
  have := List.all_eq_true.mp (startFrames_nonempty version o g) f
    (only_frames (only_start version ho hg b) hr f hf)
  simpa using this

/-- The commands of an erased stick with Z-Stack 1.2: there are some, and none is among them. -/
example : nvWrite 0x03 [2] ∈ frames (Stick.run 100 (startZnp 0 exampleOptions 0x0B84 false) (Stick.memory [])).1 ∧
    ∀ f ∈ frames (Stick.run 100 (startZnp 0 exampleOptions 0x0B84 false) (Stick.memory [])).1,
      (CommandType.SRSP, f.subsystem, f.commandId) ∉ emptyMessages :=
  ⟨by decide +kernel, c90_startup example_wf (by decide) ⟨_, Stick.run_feed 100 _ _⟩⟩

end Zcc
