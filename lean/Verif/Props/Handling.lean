import Verif.Proofs.Handling
import Verif.Props.App

/-!
# C55, C56: the LED, and exceptions while handling messages
-/

namespace Zcc
open Spec

/-! ## C55 -/

/-- The decoded indication. -/
def joinInd (duration : UInt8) (q : Option Int) : Obj :=
  { commandType := .AREQ, subsystem := .ZDO, command := "permitJoinInd", commandId := 0xCB,
    payload := [("duration", .int duration.toNat)], parameters := [("duration", .UINT8)],
    sequence := q }

/-- **C55.** When the radio reports that joining is permitted for `duration` seconds (0: no longer
permitted), one LED command is started - none on Z-Stack 3.x.0 -, off for 0 and on otherwise;
nothing else happens. -/
theorem c55_led (es : List Event) (hreg : StartupWaiters es) (a : App) (p : Int)
    (hp : a.product = some p) (duration : UInt8) (rest : List UInt8) :
    (receive (Api.init.run es) a (Frame.of .AREQ .ZDO 0xCB (duration :: rest))).2 =
      ⟨a, if p = 1 then [] else [.led (if duration = 0 then 0 else 1)], none⟩ := by
  have hd : Obj.fromUnpiFrame (Frame.of .AREQ .ZDO 0xCB (duration :: rest)) =
      .ok (joinInd duration none) := by
    have := decode_payload (s := .ZDO)
      (c := { name := "permitJoinInd", id := 0xCB, type := .AREQ, request := [("duration", .UINT8)],
              response := none }) ⟨defZDO, rfl, by decide +kernel⟩ (t := .AREQ) (by decide)
      [.int duration.toNat] rfl (by
        refine ⟨_, rfl, fits_u8 _ _ _ ?_, trivial⟩
        decide) (bytes := [duration]) (by
        rw [write_zip rfl (by decide)]
        simp only [writeVals, writeParameter, writeScalar, writeInt_u8, ok_bind, pure_ok]
        rfl) rest
    exact this
  obtain ⟨q, hq⟩ := receive_ok es hreg a _ _ hd
  rw [hq]
  change a.handleZnp (joinInd duration q) = _
  have hre : (joinInd duration q).toUnpiFrame = .ok (Frame.of .AREQ .ZDO 0xCB [duration]) := by
    refine reencode (bytes := [duration]) ?_
    have := write_zip (ps := [("duration", ParameterType.UINT8)]) (vs := [.int duration.toNat]) rfl (by decide)
    simp only [List.map_cons, List.map_nil, List.zip_cons_cons, List.zip_nil_right] at this
    refine Eq.trans this ?_
    simp only [writeVals, writeParameter, writeScalar, writeInt_u8, ok_bind, pure_ok]
    rfl
  unfold App.handleZnp
  rw [if_neg (by simp [joinInd]), hre]
  dsimp only
  rw [if_neg (by simp [joinInd])]
  unfold App.dispatch
  rw [if_neg (by simp [joinInd, IGNORED])]
  dsimp only
  rw [if_neg (by simp [joinInd])]
  dsimp only
  rw [if_pos (by simp [joinInd]), dictGet_some (v := .int duration.toNat) rfl]
  dsimp only
  unfold App.setLed
  rw [hp]
  dsimp only
  have hz : (Val.int (duration.toNat : Int) = .int 0) ↔ duration = 0 := by
    rw [Val.int.injEq]
    constructor
    · intro h
      apply UInt8.toNat_inj.mp
      have : duration.toNat = 0 := by omega
      simpa using this
    · intro h; subst h; rfl
  by_cases h1 : p = 1
  · rw [if_neg (show ¬ p ≠ zStack3x0 from fun h => h h1), if_pos h1]; rfl
  · by_cases h0 : duration = 0
    · rw [if_pos (hz.mpr h0), if_pos (show p ≠ zStack3x0 from h1), if_neg h1, if_pos h0]; rfl
    · rw [if_neg (fun h => h0 (hz.mp h)), if_pos (show p ≠ zStack3x0 from h1), if_neg h1, if_neg h0]; rfl

example : (receive Api.init exApp (Frame.of .AREQ .ZDO 0xCB [60])).2 = ⟨exApp, [.led 1], none⟩ ∧
    (receive Api.init { exApp with product := some 1 } (Frame.of .AREQ .ZDO 0xCB [60])).2.effects = [] := by
  decide +kernel

/-! ## C56 -/

/-- With byte transaction numbers in the table, the message handed on carries a byte or none. -/
theorem handed_sequence (es : List Event) (hb : ByteSequences es) (f : Frame) (o : Obj)
    (h : ((Api.init.run es).dataReceived f).2 = .ok o) : ∀ n, o.sequence = some n → 0 ≤ n ∧ n < 256 := by
  have hr : RegsSat (fun _ q => ∀ n, q = some n → 0 ≤ n ∧ n < 256) (Api.init.run es).log := by
    refine regsSat_run' (fun _ _ _ _ n h => by simp at h) es Api.init
      (fun x t h => by simp [Api.init] at h) ?_ ?_
    · intro e he o q heq m q' hq n hn
      subst heq
      rcases responseWaiter_sequence hq with h1 | h1
      · rw [h1] at hn; simp at hn
      · rw [h1] at hn; subst hn; exact hb.1 o n he
    · intro e he m to q heq n hn
      subst heq
      rw [hb.2 m to q he] at hn; simp at hn
  have hs : ∀ x ∈ (Api.init.run es).waiters, ∀ n, x.sequence = some n → 0 ≤ n ∧ n < 256 := by
    intro x hx
    obtain ⟨time, h, _⟩ := (inv_run es).wait.regW x hx
    exact hr x time h
  intro n hn
  unfold Api.dataReceived at h
  split at h
  · simp at h
  · dsimp only at h
    split at h
    · simp at h
    · rename_i s' seq heq
      simp only [Except.ok.injEq] at h
      subst h
      have := matchLoop_sequence _ _ _ _ (congrArg Prod.snd heq)
      rcases this with h1 | ⟨w, h1, h2⟩
      · dsimp only at hn; rw [h1] at hn; simp at hn
      · dsimp only at hn; exact hs w h1 n (h2.trans hn)

/-- **C56.** Whatever has happened before, a frame that decodes to a message does not make the
receiver raise, except for indications that cannot be encoded again (`handle_znp` encodes every
indication first). -/
theorem c56_never_raises_partial (es : List Event) (hreg : StartupWaiters es) (hb : ByteSequences es)
    (a : App) (hp : a.product ≠ none) (f : Frame) (o : Obj) (ho : Obj.fromUnpiFrame f = .ok o)
    (hw : f.commandType = .AREQ → ∀ p ∈ o.parameters, Writable p.2) :
    (receive (Api.init.run es) a f).2.raised = none := by
  obtain ⟨q, hq⟩ := c27_matching_never_raises es hreg f o ho
  have hs := handed_sequence es hb f _ hq
  unfold receive
  rcases hr : (Api.init.run es).dataReceived f with ⟨s, e | o'⟩
  · rw [hr] at hq; simp at hq
  · rw [hr] at hq
    simp only [Except.ok.injEq] at hq
    subst hq
    exact handleZnp_no_raise ho hw (.inl hp) hs

/-- **C56.** Among the indications of the command table, exactly eight of the MAC layer make the
receiver raise although they decode; the application's state is unchanged even then. -/
theorem c56_exact (es : List Event) (hreg : StartupWaiters es) (hb : ByteSequences es)
    (a : App) (hp : a.product ≠ none) (s : Subsystem) (c : Cmd) (hc : InTable s c)
    (ht : c.type = .AREQ) (data : List UInt8) (o : Obj)
    (ho : Obj.fromUnpiFrame (Frame.of .AREQ s c.id data) = .ok o) :
    ((receive (Api.init.run es) a (Frame.of .AREQ s c.id data)).2.raised ≠ none ↔
      s = .MAC ∧ c.name ∈ unforwardable) ∧
    (s = .MAC → c.name ∈ unforwardable →
      (receive (Api.init.run es) a (Frame.of .AREQ s c.id data)).2.app = a ∧
      (receive (Api.init.run es) a (Frame.of .AREQ s c.id data)).2.effects = []) := by
  have hpo : ParamsOf c .AREQ c.request := by unfold ParamsOf; rw [if_neg (by decide)]
  have hoe := ho
  rw [fromUnpiFrame_eq (f := Frame.of .AREQ s c.id data) hc rfl rfl hpo] at hoe
  rcases hrp : readParameters (Frame.of .AREQ s c.id data).data c.request with e | pl
  · rw [hrp] at hoe; simp [Except.map] at hoe
  rw [hrp] at hoe
  simp only [Except.map, Except.ok.injEq] at hoe
  have hpar : o.parameters = c.request := by rw [← hoe]
  have hty : o.commandType = .AREQ := by rw [← hoe]
  have hread := (c17_receivable_partial s c hc ht).mp ⟨data, o, ho⟩
  obtain ⟨cs, hcs, hmem⟩ := hc
  have hmac := mac_dec s (mem_allSubsystems s) cs hcs c hmem ht
  rw [hread, Bool.true_and] at hmac
  obtain ⟨q, hq⟩ := receive_ok es hreg a _ o ho
  by_cases hany : c.request.any (fun p => !decide (Writable p.2)) = true
  · have hx : ∃ p ∈ o.parameters, ¬ Writable p.2 := by
      rw [hpar]
      obtain ⟨p, h1, h2⟩ := List.any_eq_true.mp hany
      exact ⟨p, h1, by simpa using h2⟩
    obtain ⟨e, he⟩ := toUnpiFrame_unwritable ho hx
    rw [hq, handleZnp_raises hty he]
    exact ⟨⟨fun _ => hmac.mp hany, fun _ => by simp⟩, fun _ _ => ⟨rfl, rfl⟩⟩
  · have hw : ∀ p ∈ o.parameters, Writable p.2 := by
      rw [hpar]
      intro p h1
      apply Decidable.byContradiction
      intro h2
      exact hany (List.any_eq_true.mpr ⟨p, h1, by simpa using h2⟩)
    have hno := c56_never_raises_partial es hreg hb a hp _ o ho (fun _ => hw)
    refine ⟨⟨fun h => absurd hno h, fun h => absurd (hmac.mpr h) hany⟩, fun h1 h2 => ?_⟩
    exact absurd (hmac.mpr ⟨h1, h2⟩) hany

/-- **C56.** Before the first start-up has read the version, exactly two more indications make the
receiver raise, with `KeyError`: those that switch the LED. Nothing else happens then. -/
theorem c56_early (es : List Event) (hreg : StartupWaiters es) (hb : ByteSequences es)
    (a : App) (hp : a.product = none) (s : Subsystem) (c : Cmd) (hc : InTable s c)
    (ht : c.type = .AREQ) (data : List UInt8) (o : Obj)
    (ho : Obj.fromUnpiFrame (Frame.of .AREQ s c.id data) = .ok o) :
    ((receive (Api.init.run es) a (Frame.of .AREQ s c.id data)).2.raised ≠ none ↔
      (s = .MAC ∧ c.name ∈ unforwardable) ∨
      (s = .ZDO ∧ (c.name = "permitJoinInd" ∨ c.name = "mgmtPermitJoinRsp"))) ∧
    (s = .ZDO → c.name = "permitJoinInd" ∨ c.name = "mgmtPermitJoinRsp" →
      (receive (Api.init.run es) a (Frame.of .AREQ s c.id data)).2 =
        ⟨a, [], some (.keyError "product")⟩) := by
  have hpo : ParamsOf c .AREQ c.request := by unfold ParamsOf; rw [if_neg (by decide)]
  have hoe := ho
  rw [fromUnpiFrame_eq (f := Frame.of .AREQ s c.id data) hc rfl rfl hpo] at hoe
  rcases hrp : readParameters (Frame.of .AREQ s c.id data).data c.request with e | pl
  · rw [hrp] at hoe; simp [Except.map] at hoe
  rw [hrp] at hoe
  simp only [Except.map, Except.ok.injEq] at hoe
  have hpar : o.parameters = c.request := by rw [← hoe]
  have hty : o.commandType = .AREQ := by rw [← hoe]
  have hsub : o.subsystem = s := by rw [← hoe]
  have hcmd : o.command = c.name := by rw [← hoe]
  have hled : IsLed o ↔ s = .ZDO ∧ (c.name = "permitJoinInd" ∨ c.name = "mgmtPermitJoinRsp") := by
    unfold IsLed; rw [hsub, hcmd]
  have hread := (c17_receivable_partial s c hc ht).mp ⟨data, o, ho⟩
  have hc0 := hc
  obtain ⟨cs, hcs, hmem⟩ := hc
  have hmac := mac_dec s (mem_allSubsystems s) cs hcs c hmem ht
  rw [hread, Bool.true_and] at hmac
  obtain ⟨q, hq⟩ := receive_ok es hreg a _ o ho
  by_cases hany : c.request.any (fun p => !decide (Writable p.2)) = true
  · have hx : ∃ p ∈ o.parameters, ¬ Writable p.2 := by
      rw [hpar]
      obtain ⟨p, h1, h2⟩ := List.any_eq_true.mp hany
      exact ⟨p, h1, by simpa using h2⟩
    obtain ⟨e, he⟩ := toUnpiFrame_unwritable ho hx
    rw [hq, handleZnp_raises hty he]
    refine ⟨⟨fun _ => .inl (hmac.mp hany), fun _ => by simp⟩, fun hz _ => ?_⟩
    rw [(hmac.mp hany).1] at hz; cases hz
  · have hw : ∀ p ∈ o.parameters, Writable p.2 := by
      rw [hpar]
      intro p h1
      apply Decidable.byContradiction
      intro h2
      exact hany (List.any_eq_true.mpr ⟨p, h1, by simpa using h2⟩)
    by_cases hl : IsLed o
    · rw [hq, handleZnp_early ho rfl hw hp hl]
      exact ⟨⟨fun _ => .inr (hled.mp hl), fun _ => by simp⟩, fun _ _ => rfl⟩
    · have hno : (receive (Api.init.run es) a (Frame.of .AREQ s c.id data)).2.raised = none := by
        obtain ⟨q', hq'⟩ := c27_matching_never_raises es hreg _ o ho
        have hs := handed_sequence es hb _ _ hq'
        unfold receive
        rcases hr : (Api.init.run es).dataReceived (Frame.of .AREQ s c.id data) with ⟨x, e | o'⟩
        · rw [hr] at hq'; simp at hq'
        · rw [hr] at hq'
          simp only [Except.ok.injEq] at hq'
          subst hq'
          exact handleZnp_no_raise ho (fun _ => hw) (.inr hl) hs
      refine ⟨⟨fun h => absurd hno h, fun h => ?_⟩, fun h1 h2 => absurd (hled.mpr ⟨h1, h2⟩) hl⟩
      rcases h with h | h
      · exact absurd (hmac.mpr h) hany
      · exact absurd (hled.mpr h) hl

/-- A radio that is still open for joining when the first start-up begins. -/
example : (receive Api.init {} (Frame.of .AREQ .ZDO 0xCB [60])).2.raised = some (.keyError "product") ∧
    (receive Api.init {} (Frame.of .AREQ .ZDO 0xB6 [0, 0, 0])).2.raised = some (.keyError "product") ∧
    (receive Api.init {} (Frame.of .AREQ .ZDO 0xCA [1, 0] )).2.raised ≠ some (.keyError "product") := by
  decide +kernel

/-- **C56 (refuted).** An orphan indication of the MAC layer decodes, and makes the receiver raise. -/
theorem c56_refuted : ¬ ∀ (a : App) (f : Frame) (o : Obj), a.product ≠ none →
    Obj.fromUnpiFrame f = .ok o → (receive Api.init a f).2.raised = none := by
  intro h
  have key : (Obj.fromUnpiFrame (Frame.of .AREQ .MAC 0x8A (List.replicate 19 0))).toOption.isSome ∧
      (receive Api.init exApp (Frame.of .AREQ .MAC 0x8A (List.replicate 19 0))).2.raised = some .todo := by
    decide +kernel
  rcases ho : Obj.fromUnpiFrame (Frame.of .AREQ .MAC 0x8A (List.replicate 19 0)) with e | o
  · rw [ho] at key; simp [Except.toOption] at key
  · have := h exApp _ o (by decide) ho
    rw [key.2] at this
    simp at this

example : ByteSequences [.registerResponse exNodeDesc (some 5), .tick 3,
    .registerResponse exNodeDesc (some 255)] := by
  constructor
  · intro o n h; simp at h; rcases h with ⟨_, rfl⟩ | ⟨_, rfl⟩ <;> decide
  · intro m to q h; simp at h

/-- ZDO_STATE_CHANGE_IND is none of those that raise. -/
example :
    (receive (Api.init.run []) exApp (Frame.of .AREQ .ZDO 0xC0 [9])).2.raised = none := by
  have h := (c56_exact [] (by intro m to q h; simp at h) ⟨by simp, by simp⟩ exApp (by decide) .ZDO
    { name := "stateChangeInd", id := 0xC0, type := .AREQ, request := [("state", .UINT8)], response := none }
    ⟨_, rfl, by decide +kernel⟩ rfl [9] _ rfl).1
  exact Classical.not_not.mp fun hn => absurd (h.mp hn).1 (by decide)

end Zcc
