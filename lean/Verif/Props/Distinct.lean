import Verif.Proofs.Distinct
import Verif.Props.Codec
import Verif.Props.Framing

/-!
# C95: different requests have different bytes
-/

namespace Zcc

open Spec

/-- **C95**, except for the MAC requests `startReq` and `dataReq`: two requests that become the same frame are
the same command with the same value in each field.
Missing: these two, for which it is false (`c95_refuted`). -/
theorem c95_distinct_partial (ints : Bool) (s s' : Subsystem) (name name' : String) (p p' : Payload) (o o' : Obj) (f : Frame)
    (h : Obj.fromCommand s name p = .ok o) (h' : Obj.fromCommand s' name' p' = .ok o')
    (hf : o.toUnpiFrame = .ok f) (hf' : o'.toUnpiFrame = .ok f)
    (hp : Proper ints p o.parameters) (hp' : Proper ints p' o'.parameters)
    (hm : ¬ (s = .MAC ∧ name ∈ ["startReq", "dataReq"])) :
    s = s' ∧ name = name' ∧ ∀ q ∈ o.parameters, p.lookup q.1 = p'.lookup q.1 := by
  obtain ⟨c, hc, rfl, rfl⟩ := fromCommand_ok h
  obtain ⟨c', hc', rfl, rfl⟩ := fromCommand_ok h'
  obtain ⟨w, f1, f2⟩ := toUnpiFrame_ok hf
  obtain ⟨w', f1', f2'⟩ := toUnpiFrame_ok hf'
  have hs : s = s' := f1.symm.trans f1'
  subst hs
  have he : c = c' := c14_table_unambiguous s c c' hc hc' (.inl (f2.symm.trans f2'))
  subst he
  refine ⟨rfl, rfl, ?_⟩
  obtain ⟨cs, h1, h2⟩ := hc
  exact fields_inj (known := []) (fun _ h => by cases h) (fun q hq => by cases hq) (table_delimited_dec s (mem_allSubsystems s) cs h1 c h2 hm) hp hp' w w'

/-- The bytes written determine type, subsystem, command and data (C07). -/
theorem same_parts {f f' : Frame} {b : List UInt8} (hb : Gateway.send f = .ok b) (hb' : Gateway.send f' = .ok b) :
    f.commandType = f'.commandType ∧ f.subsystem = f'.subsystem ∧ f.commandId = f'.commandId ∧ f.data = f'.data := by
  have fits : ∀ g : Frame, Gateway.send g = .ok b → Fits g ∧ wire g = b := by
    intro g hg
    by_cases hfit : Fits g
    · rw [(c07_wire_format g).1 hfit] at hg
      exact ⟨hfit, Except.ok.inj hg⟩
    · rw [(c07_wire_format g).2 hfit] at hg
      cases hg
  obtain ⟨g1, g2⟩ := fits f hb
  obtain ⟨g1', g2'⟩ := fits f' hb'
  exact c07_wire_injective f f' g1 g1' (g2.trans g2'.symm)

theorem same_frame {f f' : Frame} {b : List UInt8} (hb : Gateway.send f = .ok b) (hb' : Gateway.send f' = .ok b) :
    f.subsystem = f'.subsystem ∧ f.commandId = f'.commandId ∧ f.data = f'.data :=
  (same_parts hb hb').2

/-- **C95**, with the same exception: if the same bytes are written for two requests, they are the same command with
the same value in each field. -/
theorem c95_written_partial (ints : Bool) (s s' : Subsystem) (name name' : String) (p p' : Payload) (o o' : Obj) (f f' : Frame)
    (b : List UInt8) (h : Obj.fromCommand s name p = .ok o) (h' : Obj.fromCommand s' name' p' = .ok o')
    (hf : o.toUnpiFrame = .ok f) (hf' : o'.toUnpiFrame = .ok f') (hb : Gateway.send f = .ok b)
    (hb' : Gateway.send f' = .ok b) (hp : Proper ints p o.parameters) (hp' : Proper ints p' o'.parameters)
    (hm : ¬ (s = .MAC ∧ name ∈ ["startReq", "dataReq"])) :
    s = s' ∧ name = name' ∧ ∀ q ∈ o.parameters, p.lookup q.1 = p'.lookup q.1 := by
  obtain ⟨e1, e2, e3⟩ := same_frame hb hb'
  obtain ⟨c, hc, rfl, rfl⟩ := fromCommand_ok h
  obtain ⟨c', hc', rfl, rfl⟩ := fromCommand_ok h'
  obtain ⟨w, f1, f2⟩ := toUnpiFrame_ok hf
  obtain ⟨w', f1', f2'⟩ := toUnpiFrame_ok hf'
  have hs : s = s' := f1.symm.trans (e1.trans f1')
  subst hs
  have he : c = c' := c14_table_unambiguous s c c' hc hc' (.inl (f2.symm.trans (e2.trans f2')))
  subst he
  rw [← e3] at w'
  refine ⟨rfl, rfl, ?_⟩
  obtain ⟨cs, h1, h2⟩ := hc
  exact fields_inj (known := []) (fun _ h => by cases h) (fun q hq => by cases hq) (table_delimited_dec s (mem_allSubsystems s) cs h1 c h2 hm) hp hp' w w'

/-- C95 for all commands of the table, if the key sources in MAC requests have the eight bytes that the radio
expects: if the same bytes are written for two requests, they are the same. -/
theorem c95_key_sources (ints : Bool) (s s' : Subsystem) (name name' : String) (p p' : Payload) (o o' : Obj)
    (f f' : Frame) (b : List UInt8) (h : Obj.fromCommand s name p = .ok o)
    (h' : Obj.fromCommand s' name' p' = .ok o') (hf : o.toUnpiFrame = .ok f) (hf' : o'.toUnpiFrame = .ok f')
    (hb : Gateway.send f = .ok b) (hb' : Gateway.send f' = .ok b) (hp : Proper ints p o.parameters)
    (hp' : Proper ints p' o'.parameters) (h8 : EightBytes p) (h8' : EightBytes p') :
    s = s' ∧ name = name' ∧ ∀ q ∈ o.parameters, p.lookup q.1 = p'.lookup q.1 := by
  obtain ⟨e1, e2, e3⟩ := same_frame hb hb'
  obtain ⟨c, hc, rfl, rfl⟩ := fromCommand_ok h
  obtain ⟨c', hc', rfl, rfl⟩ := fromCommand_ok h'
  obtain ⟨w, f1, f2⟩ := toUnpiFrame_ok hf
  obtain ⟨w', f1', f2'⟩ := toUnpiFrame_ok hf'
  have hs : s = s' := f1.symm.trans (e1.trans f1')
  subst hs
  have he : c = c' := c14_table_unambiguous s c c' hc hc' (.inl (f2.symm.trans (e2.trans f2')))
  subst he
  rw [← e3] at w'
  refine ⟨rfl, rfl, ?_⟩
  obtain ⟨cs, h1, h2⟩ := hc
  exact fields_inj (known := keySources) (fun r hr x y hx hy => (h8 r hr x hx).trans (h8' r hr y hy).symm)
    (fun q hq => by cases hq) (table_known_dec s (mem_allSubsystems s) cs h1 c h2) hp hp' w w'

/-- C95: two messages of the home automation profile to a node become the same frame only if address, endpoints,
cluster, transaction number, radius and data are the same. -/
theorem c95_unicast (nwk cluster srcEp dstEp sequence radius nwk' cluster' srcEp' dstEp' sequence' radius' : Int)
    (data data' : List UInt8) (o o' : Obj) (f : Frame)
    (h : Obj.fromCluster nwk 260 cluster srcEp dstEp sequence data radius none = .ok o)
    (h' : Obj.fromCluster nwk' 260 cluster' srcEp' dstEp' sequence' data' radius' none = .ok o')
    (hf : o.toUnpiFrame = .ok f) (hf' : o'.toUnpiFrame = .ok f) :
    nwk = nwk' ∧ cluster = cluster' ∧ srcEp = srcEp' ∧ dstEp = dstEp' ∧ sequence = sequence' ∧ radius = radius' ∧
      data = data' := by
  rw [fromCluster_unicast] at h h'
  cases h; cases h'
  have all := fields_inj (known := []) (fun _ h => by cases h) (ps := dataRequestCmd.request) (prev := none) (fun q hq => by cases hq) (by decide)
    (unicast_proper ..) (unicast_proper ..) (toUnpiFrame_ok hf).1 (toUnpiFrame_ok hf').1
  have int : ∀ {m n : Int}, some (Val.int m) = some (Val.int n) → m = n := fun e => Val.int.inj (Option.some.inj e)
  exact ⟨int (all ("dstaddr", .UINT16) (by decide)), int (all ("clusterid", .UINT16) (by decide)),
    int (all ("srcendpoint", .UINT8) (by decide)), int (all ("destendpoint", .UINT8) (by decide)),
    int (all ("transid", .UINT8) (by decide)), int (all ("radius", .UINT8) (by decide)),
    Val.bytes.inj (Option.some.inj (all ("data", .BUFFER) (by decide)))⟩

/-- C95: the same for group messages and broadcasts (`mode`). -/
theorem c95_ext (mode nwk cluster srcEp dstEp sequence radius mode' nwk' cluster' srcEp' dstEp' sequence' radius' : Int)
    (data data' : List UInt8) (o o' : Obj) (f : Frame)
    (h : Obj.fromCluster nwk 260 cluster srcEp dstEp sequence data radius (some mode) = .ok o)
    (h' : Obj.fromCluster nwk' 260 cluster' srcEp' dstEp' sequence' data' radius' (some mode') = .ok o')
    (hf : o.toUnpiFrame = .ok f) (hf' : o'.toUnpiFrame = .ok f) :
    mode = mode' ∧ nwk = nwk' ∧ cluster = cluster' ∧ srcEp = srcEp' ∧ dstEp = dstEp' ∧ sequence = sequence' ∧
      radius = radius' ∧ data = data' := by
  rw [fromCluster_ext] at h h'
  cases h; cases h'
  have all := fields_inj (known := []) (fun _ h => by cases h) (ps := dataRequestExtCmd.request) (prev := none) (fun q hq => by cases hq) (by decide)
    (ext_proper ..) (ext_proper ..) (toUnpiFrame_ok hf).1 (toUnpiFrame_ok hf').1
  have int : ∀ {m n : Int}, some (Val.int m) = some (Val.int n) → m = n := fun e => Val.int.inj (Option.some.inj e)
  exact ⟨int (all ("dstaddrmode", .UINT8) (by decide)), int (all ("dstaddr", .IEEEADDR) (by decide)),
    int (all ("clusterid", .UINT16) (by decide)),
    int (all ("srcendpoint", .UINT8) (by decide)), int (all ("destendpoint", .UINT8) (by decide)),
    int (all ("transid", .UINT8) (by decide)), int (all ("radius", .UINT8) (by decide)),
    Val.bytes.inj (Option.some.inj (all ("data", .BUFFER) (by decide)))⟩

/-- C95: whatever their kinds, if the same bytes are written for two messages of the home automation profile, they
have the same kind (to a node or, with `mode`, to a group or everyone) and all their arguments are the same. -/
theorem c95_messages (mode mode' : Option Int)
    (nwk cluster srcEp dstEp sequence radius nwk' cluster' srcEp' dstEp' sequence' radius' : Int)
    (data data' : List UInt8) (o o' : Obj) (f f' : Frame) (b : List UInt8)
    (h : Obj.fromCluster nwk 260 cluster srcEp dstEp sequence data radius mode = .ok o)
    (h' : Obj.fromCluster nwk' 260 cluster' srcEp' dstEp' sequence' data' radius' mode' = .ok o')
    (hf : o.toUnpiFrame = .ok f) (hf' : o'.toUnpiFrame = .ok f') (hb : Gateway.send f = .ok b)
    (hb' : Gateway.send f' = .ok b) :
    mode = mode' ∧ nwk = nwk' ∧ cluster = cluster' ∧ srcEp = srcEp' ∧ dstEp = dstEp' ∧ sequence = sequence' ∧
      radius = radius' ∧ data = data' := by
  have e : f = f' := by
    obtain ⟨h1, h2, h3, h4⟩ := same_parts hb hb'
    have l := toUnpiFrame_bare hf
    have l' := toUnpiFrame_bare hf'
    cases f; cases f'
    simp_all only
  subst e
  cases mode with
  | none =>
    cases mode' with
    | none => exact ⟨rfl, c95_unicast _ _ _ _ _ _ _ _ _ _ _ _ _ _ _ _ _ h h' hf hf'⟩
    | some m' =>
      rw [fromCluster_unicast] at h
      rw [fromCluster_ext] at h'
      cases h; cases h'
      exact absurd ((toUnpiFrame_ok hf).2.2.symm.trans (toUnpiFrame_ok hf').2.2) (show ¬ (1 : Nat) = 2 by decide)
  | some m =>
    cases mode' with
    | none =>
      rw [fromCluster_ext] at h
      rw [fromCluster_unicast] at h'
      cases h; cases h'
      exact absurd ((toUnpiFrame_ok hf).2.2.symm.trans (toUnpiFrame_ok hf').2.2) (show ¬ (2 : Nat) = 1 by decide)
    | some m' =>
      obtain ⟨h1, h2⟩ := c95_ext _ _ _ _ _ _ _ _ _ _ _ _ _ _ _ _ _ _ _ h h' hf hf'
      exact ⟨congrArg some h1, h2⟩

/-! ## Executions -/

/-- `KindOf` and `Proper`, computed. -/
def hasKind : ParameterType → Val → Bool
  | .UINT8, .int _ | .UINT16, .int _ | .UINT32, .int _ => true
  | .IEEEADDR, .eui b => b.length == 8
  | .BUFFER, .bytes _ => true
  | .LIST_UINT8, .ints _ | .LIST_UINT16, .ints _ => true
  | _, _ => false

def isProper (payload : Payload) (ps : Params) : Bool :=
  ps.all (fun p => (payload.lookup p.1).all (hasKind p.2)) &&
    listCounts.all fun x => !(ps.map (·.1)).contains x.2 || (payload.lookup x.2).all fun v =>
      (elements v).all fun (n : Nat) => payload.lookup x.1 == some (.int (n : Int))

theorem hasKind_kind {t : ParameterType} {v : Val} (h : hasKind t v = true) : KindOf false t v := by
  unfold hasKind at h
  split at h
  · exact ⟨_, rfl⟩
  · exact ⟨_, rfl⟩
  · exact ⟨_, rfl⟩
  · exact ⟨_, rfl, by simpa using h⟩
  · exact ⟨_, rfl⟩
  · exact ⟨_, rfl⟩
  · exact ⟨_, rfl⟩
  · cases h

theorem proper_of {payload : Payload} {ps : Params} (h : isProper payload ps = true) : Proper false payload ps := by
  unfold isProper at h
  rw [Bool.and_eq_true, List.all_eq_true, List.all_eq_true] at h
  refine ⟨fun p hp v hv => ?_, fun q r hm hr v n hv hn => ?_⟩
  · have := h.1 p hp
    rw [hv] at this
    exact hasKind_kind this
  · have := h.2 (q, r) hm
    dsimp only at this
    rw [hv] at this
    simp only [Option.all_some, hn, Bool.or_eq_true, Bool.not_eq_true', beq_iff_eq] at this
    rcases this with h1 | h1
    · have := List.contains_iff_mem.mpr hr
      rw [h1] at this; cases this
    · exact h1

/-- A MAC data request: `len` bytes of data, key source `key`. -/
def exMacData (key : List UInt8) (keyindex len : Int) (msdu : List UInt8) : Payload :=
  [("destaddressmode", .int 2), ("destaddress", .eui [1, 2, 3, 4, 5, 6, 7, 8]), ("destpanid", .int 0x1A62),
   ("srcaddressmode", .int 2), ("handle", .int 1), ("txoption", .int 0), ("logicalchannel", .int 11),
   ("power", .int 0), ("keysource", .bytes key), ("securitylevel", .int 0), ("keyidmode", .int 0),
   ("keyindex", .int keyindex), ("msdulength", .int len), ("msdu", .bytes msdu)]

/-- **C95** is false for the MAC requests: the key source has no length. A request without key source and two
bytes of data and one with a key source of one byte and one byte of data, both with the right length of the
data, become the same frame. -/
theorem c95_refuted : ∃ (p p' : Payload) (o o' : Obj) (f : Frame),
    Obj.fromCommand .MAC "dataReq" p = .ok o ∧ Obj.fromCommand .MAC "dataReq" p' = .ok o' ∧
    o.toUnpiFrame = .ok f ∧ o'.toUnpiFrame = .ok f ∧ Proper false p o.parameters ∧ Proper false p' o'.parameters ∧
    (p.lookup "msdulength" = some (.int 2) ∧ p.lookup "msdu" = some (.bytes [1, 7])) ∧
    (p'.lookup "msdulength" = some (.int 1) ∧ p'.lookup "msdu" = some (.bytes [7])) :=
  ⟨exMacData [] 0 2 [1, 7], exMacData [0] 2 1 [7], _, _, _, rfl, rfl, rfl, rfl, proper_of (by decide +kernel),
    proper_of (by decide +kernel), ⟨rfl, rfl⟩, ⟨rfl, rfl⟩⟩

/-- Registration of an endpoint. -/
def exRegister (ins outs : List Int) : Payload :=
  [("endpoint", .int 11), ("appprofid", .int 0x0104), ("appdeviceid", .int 5), ("appdevver", .int 0),
   ("latencyreq", .int 0), ("appnuminclusters", .int ins.length), ("appinclusterlist", .ints ins),
   ("appnumoutclusters", .int outs.length), ("appoutclusterlist", .ints outs)]

/-- The order of the dict does not matter: the hypotheses for two different payloads. -/
example : ∀ q ∈ [("appinclusterlist", ParameterType.LIST_UINT16), ("appoutclusterlist", .LIST_UINT16)],
    (exRegister [6, 8] [0x0500]).lookup q.1 = (exRegister [6, 8] [0x0500]).reverse.lookup q.1 := by
  obtain ⟨-, -, h⟩ := c95_distinct_partial false .AF .AF "register" "register" (exRegister [6, 8] [0x0500])
    (exRegister [6, 8] [0x0500]).reverse _ _ _ rfl rfl rfl rfl (proper_of (by decide +kernel))
    (proper_of (by decide +kernel)) (by decide)
  exact fun q hq => h q (by revert q; decide)

/-- Moving a cluster from one list to the other gives another frame. -/
example (o o' : Obj) (f : Frame) (h : Obj.fromCommand .AF "register" (exRegister [6, 8] []) = .ok o)
    (h' : Obj.fromCommand .AF "register" (exRegister [6] [8]) = .ok o')
    (hf : o.toUnpiFrame = .ok f) : o'.toUnpiFrame ≠ .ok f := by
  intro hf'
  cases h; cases h'
  obtain ⟨-, -, hl⟩ := c95_distinct_partial false .AF .AF "register" "register" (exRegister [6, 8] [])
    (exRegister [6] [8]) _ _ f rfl rfl hf hf' (proper_of (by decide +kernel)) (proper_of (by decide +kernel))
    (by decide)
  exact absurd (hl ("appinclusterlist", .LIST_UINT16) (by decide)) (by decide)

/-- The same for what is written to the port. -/
example (o o' : Obj) (f f' : Frame) (b : List UInt8)
    (h : Obj.fromCommand .AF "register" (exRegister [6, 8] []) = .ok o)
    (h' : Obj.fromCommand .AF "register" (exRegister [6] [8]) = .ok o')
    (hf : o.toUnpiFrame = .ok f) (hf' : o'.toUnpiFrame = .ok f') (hb : Gateway.send f = .ok b) :
    Gateway.send f' ≠ .ok b := by
  intro hb'
  cases h; cases h'
  obtain ⟨-, -, hl⟩ := c95_written_partial false .AF .AF "register" "register" (exRegister [6, 8] [])
    (exRegister [6] [8]) _ _ f f' b rfl rfl hf hf' hb hb' (proper_of (by decide +kernel)) (proper_of (by decide +kernel))
    (by decide)
  exact absurd (hl ("appinclusterlist", .LIST_UINT16) (by decide)) (by decide)

/-- Both are written. -/
example : (∃ o f b, Obj.fromCommand .AF "register" (exRegister [6, 8] []) = .ok o ∧ o.toUnpiFrame = .ok f ∧
      Gateway.send f = .ok b) ∧
    ∃ o f b, Obj.fromCommand .AF "register" (exRegister [6] [8]) = .ok o ∧ o.toUnpiFrame = .ok f ∧
      Gateway.send f = .ok b :=
  ⟨⟨_, _, _, rfl, rfl, rfl⟩, ⟨_, _, _, rfl, rfl, rfl⟩⟩

/-- On and off are different frames, and both can be sent. -/
example : ∃ o o' f f', Obj.fromCluster 0x1234 260 6 1 1 7 [1, 7, 0] 30 none = .ok o ∧
    Obj.fromCluster 0x1234 260 6 1 1 7 [1, 7, 1] 30 none = .ok o' ∧ o.toUnpiFrame = .ok f ∧ o'.toUnpiFrame = .ok f' ∧
    f ≠ f' := by
  refine ⟨_, _, _, _, fromCluster_unicast .., fromCluster_unicast .., rfl, rfl, fun e => ?_⟩
  obtain ⟨-, -, -, -, -, -, h⟩ := c95_unicast 0x1234 6 1 1 7 30 0x1234 6 1 1 7 30 [1, 7, 0] [1, 7, 1] _ _ _
    (fromCluster_unicast ..) (fromCluster_unicast ..) rfl (by rw [e]; rfl)
  exact absurd h (by decide)

/-- A group message and a broadcast with the same number as address are different frames. -/
example : ∃ o o' f f', Obj.fromCluster 5 260 6 1 255 7 [1, 7, 0] 30 (some 1) = .ok o ∧
    Obj.fromCluster 5 260 6 1 255 7 [1, 7, 0] 30 (some 2) = .ok o' ∧ o.toUnpiFrame = .ok f ∧ o'.toUnpiFrame = .ok f' ∧
    f ≠ f' := by
  refine ⟨_, _, _, _, fromCluster_ext .., fromCluster_ext .., rfl, rfl, fun e => ?_⟩
  obtain ⟨h, -⟩ := c95_ext 1 5 6 1 255 7 30 2 5 6 1 255 7 30 [1, 7, 0] [1, 7, 0] _ _ _
    (fromCluster_ext ..) (fromCluster_ext ..) rfl (by rw [e]; rfl)
  exact absurd h (by decide)

/-- With key sources of eight bytes MAC data requests with different data are written differently. -/
example (o o' : Obj) (f f' : Frame) (b : List UInt8)
    (h : Obj.fromCommand .MAC "dataReq" (exMacData [0, 0, 0, 0, 0, 0, 0, 0] 0 2 [1, 7]) = .ok o)
    (h' : Obj.fromCommand .MAC "dataReq" (exMacData [0, 0, 0, 0, 0, 0, 0, 0] 2 1 [7]) = .ok o')
    (hf : o.toUnpiFrame = .ok f) (hf' : o'.toUnpiFrame = .ok f') (hb : Gateway.send f = .ok b) :
    Gateway.send f' ≠ .ok b := by
  intro hb'
  cases h; cases h'
  have eight : ∀ n l d, EightBytes (exMacData [0, 0, 0, 0, 0, 0, 0, 0] n l d) := by
    intro n l d r hr x hx
    simp only [keySources, List.mem_cons, List.not_mem_nil, or_false] at hr
    rcases hr with rfl | rfl | rfl
    · cases hx
    · cases hx
    · cases hx; rfl
  obtain ⟨-, -, hl⟩ := c95_key_sources false .MAC .MAC "dataReq" "dataReq" _ _ _ _ f f' b rfl rfl hf hf' hb hb'
    (proper_of (by decide +kernel)) (proper_of (by decide +kernel)) (eight _ _ _) (eight _ _ _)
  exact absurd (hl ("msdu", .BUFFER) (by decide)) (by decide)

/-- Both are written. -/
example : (∃ o f b, Obj.fromCommand .MAC "dataReq" (exMacData [0, 0, 0, 0, 0, 0, 0, 0] 0 2 [1, 7]) = .ok o ∧
      o.toUnpiFrame = .ok f ∧ Gateway.send f = .ok b) ∧
    ∃ o f b, Obj.fromCommand .MAC "dataReq" (exMacData [0, 0, 0, 0, 0, 0, 0, 0] 2 1 [7]) = .ok o ∧
      o.toUnpiFrame = .ok f ∧ Gateway.send f = .ok b :=
  ⟨⟨_, _, _, rfl, rfl, rfl⟩, ⟨_, _, _, rfl, rfl, rfl⟩⟩

/-- A message to node 5 and one to group 5 are both written, and differently. -/
example : ∃ o o' f f' b b', Obj.fromCluster 5 260 6 1 1 7 [1, 7, 0] 30 none = .ok o ∧
    Obj.fromCluster 5 260 6 1 1 7 [1, 7, 0] 30 (some 1) = .ok o' ∧ o.toUnpiFrame = .ok f ∧ o'.toUnpiFrame = .ok f' ∧
    Gateway.send f = .ok b ∧ Gateway.send f' = .ok b' ∧ b ≠ b' := by
  refine ⟨_, _, _, _, _, _, fromCluster_unicast .., fromCluster_ext .., rfl, rfl, rfl, rfl, fun e => ?_⟩
  obtain ⟨h, -⟩ := c95_messages none (some 1) 5 6 1 1 7 30 5 6 1 1 7 30 [1, 7, 0] [1, 7, 0] _ _ _ _ _
    (fromCluster_unicast ..) (fromCluster_ext ..) rfl rfl rfl (by rw [e]; rfl)
  cases h

end Zcc
