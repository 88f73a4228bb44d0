import Verif.Proofs.App
import Verif.Props.Codec

/-!
# Lemmas: when `handle_znp` raises
-/

namespace Zcc
open Spec

/-- A decoded message has a value for each of its parameters. -/
theorem payload_present {ps : Params} (hn : (ps.map (·.1)).Nodup) {data : List UInt8}
    {payload : Payload} (h : readParameters data ps = .ok payload) {name : String}
    (hx : name ∈ ps.map (·.1)) : ∃ v, payload.lookup name = some v := by
  rw [readParameters_eq _ hn] at h
  rcases hv : readVals none ps data with e | ⟨vs, rest⟩
  · rw [hv] at h; simp [Except.map] at h
  rw [hv] at h
  simp only [Except.map, Except.ok.injEq] at h
  have hl := readVals_length hv
  obtain ⟨i, hi, he⟩ := List.getElem_of_mem hx
  have hi' : i < ps.length := by simpa using hi
  refine ⟨vs[i]'(by omega), ?_⟩
  rw [← h, ← he, List.getElem_map]
  exact lookup_zip ps vs hl hn i hi'

theorem dictGet_some {p : Payload} {k : String} {v : Val} (h : p.lookup k = some v) :
    dictGet p k = .ok v := by
  unfold dictGet; rw [h]

/-- The parameters that `handle_znp` looks up are those of the commands it looks them up in. -/
theorem lookups_dec :
    (∀ c ∈ defZDO, c.name = "permitJoinInd" → "duration" ∈ c.request.map (·.1)) ∧
    (∀ c ∈ defAF, c.name = "incomingMsg" ∨ c.name = "incomingMsgExt" →
      ∀ k ∈ ["clusterid", "srcendpoint", "dstendpoint", "data", "linkquality"],
        k ∈ c.request.map (·.1)) ∧
    (∀ c ∈ defZDO, c.name = "endDeviceAnnceInd" → c = annceCmd) := by
  decide +kernel

theorem tsnByte_range {n : Int} (h : 0 ≤ n ∧ n < 256) : ∃ b, tsnByte n = .ok b := by
  unfold tsnByte; rw [if_pos h]; exact ⟨_, rfl⟩

theorem setLed_known {a : App} (hp : a.product ≠ none) (m : Int) : (a.setLed m).2 = none := by
  unfold App.setLed
  split
  · rename_i h; exact absurd h hp
  · rfl

/-- The messages that switch the LED. -/
def IsLed (o : Obj) : Prop :=
  o.subsystem = .ZDO ∧ (o.command = "permitJoinInd" ∨ o.command = "mgmtPermitJoinRsp")

theorem dispatch_no_raise {a : App} {o : Obj} (hp : a.product ≠ none ∨ ¬ IsLed o) (d : List UInt8)
    (nwk ieee : Option Val) (hseq : ∀ n, o.sequence = some n → 0 ≤ n ∧ n < 256)
    (hdur : o.subsystem = .ZDO → o.command = "permitJoinInd" → ∃ v, dictGet o.payload "duration" = .ok v)
    (haf : o.subsystem = .AF → (o.command = "incomingMsg" ∨ o.command = "incomingMsgExt") →
      ∃ v, afParts o.payload = .ok v) :
    (a.dispatch o d nwk ieee).raised = none := by
  have hled : (if o.subsystem = .ZDO ∧ o.command = "mgmtPermitJoinRsp" then a.setLed ledOn
      else (([], none) : List Effect × Option PyErr)).2 = none := by
    split
    · rename_i h
      exact setLed_known (hp.resolve_right fun hn => hn ⟨h.1, .inr h.2⟩) _
    · rfl
  unfold App.dispatch
  split
  · rfl
  dsimp only
  split
  · rename_i heq; rw [heq] at hled; simp at hled
  split
  · rename_i h
    obtain ⟨v, hv⟩ := hdur h.1 h.2
    rw [hv]
    exact setLed_known (hp.resolve_right fun hn => hn ⟨h.1, .inl h.2⟩) _
  split
  · split
    · rename_i n _ _ hs _
      obtain ⟨b, hb⟩ := tsnByte_range (hseq n hs)
      rw [hb]
    · rfl
  split
  · rename_i h
    obtain ⟨v, hv⟩ := haf h.1 h.2
    rw [hv]
  · rfl

/-- Decoding gives an announcement its two addresses. -/
theorem annce_types {data : List UInt8} {payload : Payload}
    (h : readParameters data annceCmd.request = .ok payload) :
    ∃ n b, payload.lookup "nwkaddr" = some (.int n) ∧ payload.lookup "ieeeaddr" = some (.eui b) := by
  rw [readParameters_eq _ (by decide)] at h
  rcases hv : readVals none annceCmd.request data with e | ⟨vs, rest⟩
  · rw [hv] at h; simp [Except.map] at h
  rw [hv] at h
  simp only [Except.map, Except.ok.injEq] at h
  unfold annceCmd at hv
  obtain ⟨v1, _, _, rfl, h1, hv⟩ := readVals_cons hv
  obtain ⟨v2, _, _, rfl, h2, hv⟩ := readVals_cons hv
  obtain ⟨v3, _, _, rfl, h3, hv⟩ := readVals_cons hv
  have t2 : ∃ n, v2 = .int n := by
    dsimp only at h2
    unfold readParameter at h2
    dsimp only at h2
    rcases hr : readInt 2 _ with e | ⟨x, y⟩ <;> rw [hr] at h2
    · cases h2
    · simp [ok_bind, pure_ok] at h2; exact ⟨_, h2.1.symm⟩
  have t3 : ∃ b, v3 = .eui b := by
    dsimp only at h3
    unfold readParameter at h3
    dsimp only at h3
    rcases hr : readBytes 8 _ with e | ⟨x, y⟩ <;> rw [hr] at h3
    · cases h3
    · simp [ok_bind, pure_ok] at h3; exact ⟨_, h3.1.symm⟩
  obtain ⟨n, rfl⟩ := t2
  obtain ⟨b, rfl⟩ := t3
  refine ⟨n, b, ?_, ?_⟩ <;> rw [← h] <;> rfl

/-- A decoded message with writable parameters and a proper transaction number never makes
`handle_znp` raise once the product is known, or if it does not switch the LED. -/
theorem handleZnp_no_raise {f : Frame} {o : Obj} (ho : Obj.fromUnpiFrame f = .ok o)
    (hw : f.commandType = .AREQ → ∀ p ∈ o.parameters, Writable p.2) {a : App}
    (hp : a.product ≠ none ∨ ¬ IsLed o) {q : Option Int} (hq : ∀ n, q = some n → 0 ≤ n ∧ n < 256) :
    (a.handleZnp { o with sequence := q }).raised = none := by
  obtain ⟨c, hc, _, hpar, hr, hoe⟩ := fromUnpiFrame_ok ho
  obtain ⟨hn, _⟩ := paramsOf_nodup hc hpar
  have hot : o.commandType = f.commandType := by rw [hoe]
  have hos : o.subsystem = f.subsystem := by rw [hoe]
  have hon : o.command = c.name := by rw [hoe]
  unfold App.handleZnp
  split
  · rfl
  rename_i ht
  have ht : f.commandType = .AREQ := by rw [← hot]; simpa using ht
  have hpar' : c.request = o.parameters := by
    unfold ParamsOf at hpar; rwa [ht, if_neg (by decide)] at hpar
  obtain ⟨cs, hcs, hmem⟩ := hc
  obtain ⟨l1, l2, l3⟩ := lookups_dec
  obtain ⟨g, hg, _⟩ := c11_reencode_stable f o ho (hw ht)
  have hg' : ({ o with sequence := q } : Obj).toUnpiFrame = .ok g := hg
  rw [hg']
  dsimp only
  have hdur : o.subsystem = .ZDO → o.command = "permitJoinInd" →
      ∃ v, dictGet o.payload "duration" = .ok v := by
    intro h1 h2
    rw [← hos, h1] at hcs
    have hz : cs = defZDO := by simpa [definition] using hcs.symm
    subst hz
    obtain ⟨v, hv⟩ := payload_present hn hr (name := "duration")
      (by rw [← hpar']; exact l1 c hmem (hon ▸ h2))
    exact ⟨v, dictGet_some hv⟩
  have haf : o.subsystem = .AF → (o.command = "incomingMsg" ∨ o.command = "incomingMsgExt") →
      ∃ v, afParts o.payload = .ok v := by
    intro h1 h2
    rw [← hos, h1] at hcs
    have hz : cs = defAF := by simpa [definition] using hcs.symm
    subst hz
    have hk : ∀ k ∈ ["clusterid", "srcendpoint", "dstendpoint", "data", "linkquality"],
        ∃ v, dictGet o.payload k = .ok v := by
      intro k hk
      obtain ⟨v, hv⟩ := payload_present hn hr (name := k)
        (by rw [← hpar']; exact l2 c hmem (hon ▸ h2) k hk)
      exact ⟨v, dictGet_some hv⟩
    obtain ⟨v1, e1⟩ := hk "clusterid" (by simp)
    obtain ⟨v2, e2⟩ := hk "srcendpoint" (by simp)
    obtain ⟨v3, e3⟩ := hk "dstendpoint" (by simp)
    obtain ⟨v4, e4⟩ := hk "data" (by simp)
    obtain ⟨v5, e5⟩ := hk "linkquality" (by simp)
    refine ⟨(v1, v2, v3, v4, v5), ?_⟩
    unfold afParts
    rw [e1, e2, e3, e4, e5]
    rfl
  split
  · rename_i hz
    have hcs' := hcs
    rw [← hos, hz.1] at hcs'
    have hzz : cs = defZDO := by simpa [definition] using hcs'.symm
    subst hzz
    have hca := l3 c hmem (hon ▸ hz.2)
    rw [← hpar', hca] at hr
    obtain ⟨n, b, h1, h2⟩ := annce_types hr
    rw [dictGet_some h1, h2]
    dsimp only
    exact dispatch_no_raise (a := a.handleJoin n b) (o := { o with sequence := some 0 }) (hp.imp (fun h => by
        unfold App.handleJoin; split <;> exact h) fun h => h)
      _ _ _ (by intro n h; cases h; decide) hdur haf
  · exact dispatch_no_raise (o := { o with sequence := q }) hp _ _ _ hq hdur haf

/-- A message that switches the LED makes `handle_znp` raise as long as the product is not known. -/
theorem handleZnp_early {f : Frame} {o : Obj} (ho : Obj.fromUnpiFrame f = .ok o)
    (ht : f.commandType = .AREQ) (hw : ∀ p ∈ o.parameters, Writable p.2) {a : App}
    (hp : a.product = none) (hl : IsLed o) (q : Option Int) :
    a.handleZnp { o with sequence := q } = ⟨a, [], some (.keyError "product")⟩ := by
  obtain ⟨c, hc, _, hpar, hr, hoe⟩ := fromUnpiFrame_ok ho
  obtain ⟨hn, _⟩ := paramsOf_nodup hc hpar
  have hot : o.commandType = f.commandType := by rw [hoe]
  have hos : o.subsystem = f.subsystem := by rw [hoe]
  have hon : o.command = c.name := by rw [hoe]
  have hpar' : c.request = o.parameters := by
    unfold ParamsOf at hpar; rwa [ht, if_neg (by decide)] at hpar
  obtain ⟨cs, hcs, hmem⟩ := hc
  obtain ⟨g, hg, _⟩ := c11_reencode_stable f o ho hw
  have hg' : ({ o with sequence := q } : Obj).toUnpiFrame = .ok g := hg
  have hled : ∀ m, a.setLed m = ([], some (.keyError "product")) := by
    intro m; unfold App.setLed; rw [hp]
  unfold App.handleZnp
  rw [if_neg (by simp [hot, ht]), hg']
  dsimp only
  obtain ⟨hz, hcmd⟩ := hl
  rw [if_neg (by rcases hcmd with h | h <;> simp [h])]
  unfold App.dispatch
  rw [if_neg (by rcases hcmd with h | h <;> simp [h, IGNORED])]
  dsimp only
  rcases hcmd with h | h
  · have hdur : ∃ v, dictGet o.payload "duration" = .ok v := by
      rw [← hos, hz] at hcs
      have hzz : cs = defZDO := by simpa [definition] using hcs.symm
      subst hzz
      obtain ⟨v, hv⟩ := payload_present hn hr (name := "duration")
        (by rw [← hpar']; exact lookups_dec.1 c hmem (hon ▸ h))
      exact ⟨v, dictGet_some hv⟩
    obtain ⟨v, hv⟩ := hdur
    rw [if_neg (by simp [h])]
    dsimp only
    rw [if_pos ⟨hz, h⟩, hv]
    dsimp only
    rw [hled]
    rfl
  · rw [if_pos ⟨hz, h⟩, hled]

/-- A message that cannot be encoded again makes `handle_znp` raise. -/
theorem handleZnp_raises {o : Obj} (ht : o.commandType = .AREQ) {e : PyErr}
    (he : o.toUnpiFrame = .error e) (a : App) (q : Option Int) :
    a.handleZnp { o with sequence := q } = ⟨a, [], some e⟩ := by
  unfold App.handleZnp
  rw [if_neg (by simpa using ht)]
  have : ({ o with sequence := q } : Obj).toUnpiFrame = .error e := he
  rw [this]

theorem writeParameter_unwritable {t : ParameterType} (h : ¬ Writable t) (v : Val) :
    writeParameter t v = .error .todo := by
  cases t <;> first | rfl | exact absurd trivial h

theorem writeVals_unwritable : ∀ (ps : Params) (vs : List Val), vs.length = ps.length →
    (∃ p ∈ ps, ¬ Writable p.2) → ∃ e, writeVals ps vs = .error e
  | [], _, _, ⟨p, hp, _⟩ => by simp at hp
  | p :: ps, [], h, _ => by simp at h
  | p :: ps, v :: vs, h, hx => by
    unfold writeVals
    rcases hw : writeParameter p.2 v with e | b
    · exact ⟨e, rfl⟩
    · obtain ⟨p', hp', hu⟩ := hx
      rcases List.mem_cons.mp hp' with rfl | hp'
      · rw [writeParameter_unwritable hu] at hw; simp at hw
      · obtain ⟨e, he⟩ := writeVals_unwritable ps vs (by simpa using h) ⟨p', hp', hu⟩
        rw [he]; exact ⟨e, rfl⟩

theorem toUnpiFrame_unwritable {f : Frame} {o : Obj} (ho : Obj.fromUnpiFrame f = .ok o)
    (h : ∃ p ∈ o.parameters, ¬ Writable p.2) : ∃ e, o.toUnpiFrame = .error e := by
  obtain ⟨c, hc, _, hpar, hr, hoe⟩ := fromUnpiFrame_ok ho
  obtain ⟨hn, _⟩ := paramsOf_nodup hc hpar
  rw [readParameters_eq _ hn] at hr
  rcases hv : readVals none o.parameters f.data with e | ⟨vs, rest⟩
  · rw [hv] at hr; simp [Except.map] at hr
  rw [hv] at hr
  simp only [Except.map, Except.ok.injEq] at hr
  have hl := readVals_length hv
  obtain ⟨e, he⟩ := writeVals_unwritable o.parameters vs hl h
  refine ⟨e, ?_⟩
  unfold Obj.toUnpiFrame
  rw [← hr, write_zip hl hn, he]
  rfl

/-- The transaction number of a handed on message is that of a waiter, or none. -/
theorem matchLoop_sequence (o : Obj) : ∀ (ws : List Waiter) (s : Api) (q : Option Int),
    (Api.matchLoop o ws s).2 = .ok q → q = none ∨ ∃ w ∈ ws, w.sequence = q
  | [], s, q, h => by simp [Api.matchLoop] at h; exact .inl h.symm
  | w :: ws, s, q, h => by
    rw [Api.matchLoop] at h
    split at h
    · simp at h
    · rcases matchLoop_sequence o ws s q h with h | ⟨x, h1, h2⟩
      · exact .inl h
      · exact .inr ⟨x, List.mem_cons_of_mem _ h1, h2⟩
    · dsimp only at h
      split at h
      · simp at h; exact .inr ⟨w, List.mem_cons_self, h⟩
      · rcases matchLoop_sequence o ws _ q h with h | ⟨x, h1, h2⟩
        · exact .inl h
        · exact .inr ⟨x, List.mem_cons_of_mem _ h1, h2⟩

theorem mac_dec : ∀ s ∈ allSubsystems, ∀ cs ∈ definition s, ∀ c ∈ cs, c.type = .AREQ →
    ((readable false c.request && c.request.any (fun p => !decide (Writable p.2))) = true ↔ s = .MAC ∧ c.name ∈ unforwardable) := by
  decide +kernel

theorem responseWaiter_sequence {o : Obj} {q : Option Int} {m : Matcher} {q' : Option Int}
    (h : responseWaiter o q = .ok (some (m, q'))) : q' = none ∨ q' = q := by
  unfold responseWaiter at h
  split at h
  · rcases hd : dictGet o.payload "transid" with e | v <;> rw [hd] at h
    · cases h
    · cases h; exact .inl rfl
  · split at h
    · dsimp only at h
      rcases hd : definitionGet o.subsystem with e | cs <;> rw [hd] at h
      · cases h
      · rw [ok_bind] at h
        split at h
        · rcases hx : dictGet o.payload "dstaddr" with e | v <;> rw [hx] at h
          · cases h
          · cases h; exact .inr rfl
        · cases h
    · cases h

end Zcc
