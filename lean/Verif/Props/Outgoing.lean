import Verif.Props.Codec
import Verif.Props.Framing
import Verif.Props.Runtime

/-!
# C70: what the radio reads is what was asked for
-/

namespace Zcc
open Spec

/-- A wire image is followed by something: the image can be split off in one way only. -/
theorem wire_append_inj {f g : Frame} (hf : Fits f) (hg : Fits g) {a b : List UInt8}
    (h : wire f ++ a = wire g ++ b) : received f = received g ∧ a = b := by
  have hl : f.data.length = g.data.length := by
    have h1 : (wire f ++ a)[1]? = (wire g ++ b)[1]? := by rw [h]
    have e1 : UInt8.ofNat f.data.length = UInt8.ofNat g.data.length := by
      simpa [wire, body] using h1
    have e2 := congrArg UInt8.toNat e1
    rw [UInt8.toNat_ofNat_of_lt' hf.1, UInt8.toNat_ofNat_of_lt' hg.1] at e2
    exact e2
  have hlen : (wire f).length = (wire g).length := by simp [wire, body, hl]
  obtain ⟨h1, h2⟩ := List.append_inj h hlen
  refine ⟨?_, h2⟩
  have a1 := fromBuffer_wire f hf
  have a2 := fromBuffer_wire g hg
  rw [h1, hl, a2] at a1
  simpa using a1.symm

/-- **C70.** The bytes of a stream of frames can be cut into frames in one way only (so the radio,
whatever its parser looks like, finds these frames). -/
theorem c70_unique {bytes : List UInt8} {fs gs : List Frame} (hf : IsStream bytes fs)
    (hg : IsStream bytes gs) : fs.map received = gs.map received := by
  obtain ⟨hf1, rfl⟩ := hf
  obtain ⟨hg1, he⟩ := hg
  induction fs generalizing gs with
  | nil =>
    cases gs with
    | nil => rfl
    | cons g gs => simp [wire] at he
  | cons f fs ih =>
    cases gs with
    | nil => simp [wire] at he
    | cons g gs =>
      simp only [List.map_cons, List.flatten_cons] at he
      obtain ⟨h1, h2⟩ := wire_append_inj (hf1 f (.head _)) (hg1 g (.head _)) he
      rw [List.map_cons, List.map_cons, h1, ih (fun x hx => hf1 x (.tail _ hx))
        (fun x hx => hg1 x (.tail _ hx)) h2]

/-- Each pair of a call and a frame at the same place: the frame is that of the call's request. -/
theorem stream_of_log (L0 L : List Entry)
    (h : ∀ t b, .sent t b ∈ L → ∃ o w e f, .submitted t o w e ∈ L0 ∧ o.toUnpiFrame = .ok f ∧
      Fits f ∧ b = wire f) :
    ∃ fs : List Frame, IsStream (writtenBytes L) fs ∧ fs.length = (writers L).length ∧
      ∀ (n : Nat) t f, (writers L)[n]? = some t → fs[n]? = some f →
        ∃ o w e, .submitted t o w e ∈ L0 ∧ o.toUnpiFrame = .ok f := by
  induction L with
  | nil => exact ⟨[], ⟨fun _ h => (List.not_mem_nil h).elim, rfl⟩, rfl, fun n t f h => by simp [writers] at h⟩
  | cons x L ih =>
    obtain ⟨fs, ⟨h1, h2⟩, h3, h4⟩ := ih fun t b hm => h t b (.tail _ hm)
    by_cases hx : ∃ t b, x = .sent t b
    · obtain ⟨t, b, rfl⟩ := hx
      obtain ⟨o, w, e, f, ho, hf, hfit, hb⟩ := h t b (.head _)
      refine ⟨f :: fs, ⟨?_, ?_⟩, ?_, ?_⟩
      · intro g hg
        rcases List.mem_cons.mp hg with rfl | hg
        · exact hfit
        · exact h1 g hg
      · show b ++ writtenBytes L = wire f ++ _
        rw [hb, h2]
      · show fs.length + 1 = (writers L).length + 1
        rw [h3]
      · intro n u g hu hg
        cases n with
        | zero =>
          have : t = u := by simpa [writers] using hu
          have : f = g := by simpa using hg
          subst t f
          exact ⟨o, w, e, ho, hf⟩
        | succ n => exact h4 n u g (by simpa [writers] using hu) (by simpa using hg)
    · have e1 : writtenBytes (x :: L) = writtenBytes L := by
        cases x <;> first | rfl | exact absurd ⟨_, _, rfl⟩ hx
      have e2 : writers (x :: L) = writers L := by
        cases x <;> first | rfl | exact absurd ⟨_, _, rfl⟩ hx
      rw [e1, e2]
      exact ⟨fs, ⟨h1, h2⟩, h3, h4⟩

/-- **C70.** At every moment of every execution, the bytes written so far are the wire images of the
requests that were written, in the order of writing, whole and with nothing in between. -/
theorem c70_stream (es : List Event) :
    ∃ fs : List Frame, IsStream (writtenBytes (Api.init.run es).log) fs ∧
      fs.length = (writers (Api.init.run es).log).length ∧
      ∀ (n : Nat) t f, (writers (Api.init.run es).log)[n]? = some t → fs[n]? = some f →
        ∃ o w e, .submitted t o w e ∈ (Api.init.run es).log ∧ o.toUnpiFrame = .ok f := by
  have i := Zcc.inv_run es
  refine stream_of_log _ _ fun t b hb => ?_
  obtain ⟨k, hk, _, he⟩ := i.log.sentStarted t b hb
  obtain ⟨f, h1, h2⟩ := encode_ok he
  refine ⟨k.obj, k.waiterId, k.expected, f, (i.log.subIff ..).mpr ⟨k, hk, rfl, rfl, rfl⟩, h1, ?_⟩
  by_cases hf : Fits f
  · rw [(c07_wire_format f).1 hf] at h2
    exact ⟨hf, by simpa using h2.symm⟩
  · rw [(c07_wire_format f).2 hf] at h2
    cases h2

/-- Two requests and a response: the port got FE 00 21 02 23 and the same again. -/
example : writtenBytes (Api.init.run [.setUart true, .submit exVersion none none,
      .submit exVersion none none, .grant, .frame exVersionRsp, .wake 0, .grant]).log =
    [0xFE, 0x00, 0x21, 0x02, 0x23, 0xFE, 0x00, 0x21, 0x02, 0x23] := by decide +kernel

/-- **C70.** Call numbers ascend: the frames come in the order in which the calls were made. -/
theorem c70_order (es : List Event) : (writers (Api.init.run es).log).Pairwise (· < ·) := by
  have := (Zcc.inv_run es).log.sentSorted
  have e : writers (Api.init.run es).log = (Api.init.run es).log.filterMap Entry.sentId := by
    unfold writers
    congr 1
  rw [e]
  exact this

/-- **C70.** The frame of a request whose values fit the command table reads back as that command with
these values. -/
theorem c70_decoded (s : Subsystem) (c : Cmd) (hc : InTable s c) (payload : Payload)
    (hv : ValidPayload payload none c.request) (o : Obj) (ho : Obj.fromCommand s c.name payload = .ok o)
    (f : Frame) (hf : o.toUnpiFrame = .ok f) :
    ∃ o', Obj.fromUnpiFrame (received f) = .ok o' ∧ o'.command = c.name ∧ o'.commandType = c.type ∧
      o'.subsystem = s ∧ o'.payload.map (·.1) = c.request.map (·.1) ∧
      ∀ p ∈ c.request, o'.payload.lookup p.1 = payload.lookup p.1 := by
  obtain ⟨o1, f1, h1, h2, _, _, _, h3, _⟩ := c10_encode_decode s c hc payload hv
  rw [ho] at h1; cases h1
  rw [hf] at h2; cases h2
  exact h3

example : InTable .AF exCmd ∧ ValidPayload exPayload none exCmd.request :=
  ⟨exCmd_inTable, exPayload_valid⟩

/-- A ping and a version request, one after the other: no other frames are in these bytes. -/
example (gs : List Frame)
    (h : IsStream [0xFE, 0, 0x21, 1, 0x20, 0xFE, 1, 0x21, 2, 7, 0x25] gs) :
    gs.map received = [received (Frame.of .SREQ .SYS 1 []), received (Frame.of .SREQ .SYS 2 [7])] :=
  c70_unique (gs := [Frame.of .SREQ .SYS 1 [], Frame.of .SREQ .SYS 2 [7]]) h
    ⟨by decide, by decide +kernel⟩

end Zcc
