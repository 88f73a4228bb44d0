import Verif.Proofs.Waiter2

/-!
# Request objects built by `from_cluster` (helper lemmas)
-/

namespace Zcc

open Spec

theorem zdo_names_dec : ∀ c ∈ defZDO, c.name ≠ "dataRequest" ∧ c.name ≠ "dataRequestExt" := by
  decide +kernel

/-- The bytes `from_cluster` reads the parameters of a ZDO command from. -/
def zdoBytes (c : Cmd) (nwk : Int) (data : List UInt8) : List UInt8 :=
  (if c.name = "mgmtPermitJoinReq" then
    [if nwk = allRoutersAndCoordinator then 15 else 2] else []) ++
  leBytes 2 nwk.toNat ++ data.drop 1

/-- The object `from_cluster` makes of a ZDO command. -/
abbrev zdoObj (c : Cmd) (sequence : Int) (payload : Payload) : Obj :=
  { commandType := c.type, subsystem := .ZDO, command := c.name, commandId := c.id, payload,
    parameters := c.request, sequence := some sequence }

theorem find_by_id_int {c : Cmd} : ∀ cs : List Cmd, (cs.map (·.id)).Nodup → c ∈ cs →
    cs.find? (fun x => (x.id : Int) == (c.id : Int)) = some c := by
  intro cs hn hc
  have := find_by_key (·.id) cs hn c hc
  rw [← this]
  congr 1
  funext x
  rw [Bool.eq_iff_iff]
  simp only [beq_iff_eq]
  omega

theorem nextCmd_int {c : Cmd} {cs : List Cmd} (hn : (cs.map (·.id)).Nodup) (hc : c ∈ cs) :
    nextCmd cs (fun x => (x.id : Int) == (c.id : Int)) = .ok c := by
  rw [nextCmd, find_by_id_int cs hn hc]

theorem paramsReq {s : Subsystem} {c : Cmd} (h : InTable s c) :
    c.parametersFor c.type = .ok c.request := by
  have ht : c.type ≠ .SRSP := by
    rcases (table_misc h).2.1 with h | h <;> rw [h] <;> decide
  rw [Cmd.parametersFor, if_neg ht]

theorem fromCluster_zdo_eq {c : Cmd} (hc : InTable .ZDO c) (nwk profile srcEp dstEp sequence : Int)
    (data : List UInt8) (radius : Int) (addrMode : Option Int) (hp : profile ≠ 260) :
    Obj.fromCluster nwk profile c.id srcEp dstEp sequence data radius addrMode =
      if IsUInt 2 nwk then
        (readParameters (zdoBytes c nwk data) c.request).map (zdoObj c sequence)
      else .error .overflowError := by
  obtain ⟨cs, h1, h2⟩ := id hc
  have hcs : cs = defZDO := by cases h1; rfl
  have hd : definitionGet .ZDO = .ok cs := by rw [definitionGet, h1]
  have hn := nextCmd_int (table_unique h1).1 h2
  have hnames := zdo_names_dec c (hcs ▸ h2)
  have hz : ¬ profile = zhaProfile := hp
  have hw : writeInt nwk 2 =
      if IsUInt 2 nwk then .ok (leBytes 2 nwk.toNat) else .error .overflowError := rfl
  unfold Obj.fromCluster
  simp only [if_neg hz, hd, ok_bind, hn, pure_ok, paramsReq hc, if_neg hnames.1, if_neg hnames.2, hw]
  unfold zdoBytes
  by_cases hu : IsUInt 2 nwk
  · simp only [if_pos hu, ok_bind]
    by_cases hm : c.name = "mgmtPermitJoinReq"
    · simp only [if_pos hm, List.cons_append, List.nil_append]
      rcases readParameters _ c.request with e | p <;> rfl
    · simp only [if_neg hm, List.nil_append]
      rcases readParameters _ c.request with e | p <;> rfl
  · simp only [if_neg hu, error_bind]
    split <;> rfl

theorem fromCluster_zdo_unknown {cluster : Int} (hu : ∀ c, InTable .ZDO c → (c.id : Int) ≠ cluster)
    (nwk profile srcEp dstEp sequence : Int)
    (data : List UInt8) (radius : Int) (addrMode : Option Int) (hp : profile ≠ 260) :
    Obj.fromCluster nwk profile cluster srcEp dstEp sequence data radius addrMode =
      .error .stopIteration := by
  have hd : definitionGet .ZDO = .ok defZDO := rfl
  have hz : ¬ profile = zhaProfile := hp
  have hn : nextCmd defZDO (fun c => (c.id : Int) == cluster) = .error .stopIteration := by
    unfold nextCmd
    split
    · rename_i c hc
      have h1 := List.find?_some hc
      have h2 := List.mem_of_find?_eq_some hc
      simp at h1
      exact absurd h1 (hu c ⟨_, rfl, h2⟩)
    · rfl
  unfold Obj.fromCluster
  simp only [if_neg hz, hd, ok_bind, hn, error_bind]

/-- Whatever `from_cluster` builds for another profile than ZHA is a ZDO command of the table. -/
theorem fromCluster_zdo_ok {nwk profile cluster srcEp dstEp sequence radius : Int}
    {data : List UInt8} {addrMode : Option Int} (hp : profile ≠ 260) {o : Obj}
    (h : Obj.fromCluster nwk profile cluster srcEp dstEp sequence data radius addrMode = .ok o) :
    ∃ c payload, InTable .ZDO c ∧ (c.id : Int) = cluster ∧ IsUInt 2 nwk ∧
      readParameters (zdoBytes c nwk data) c.request = .ok payload ∧
      o = zdoObj c sequence payload := by
  by_cases hu : ∃ c, InTable .ZDO c ∧ (c.id : Int) = cluster
  · obtain ⟨c, hc, rfl⟩ := hu
    rw [fromCluster_zdo_eq hc _ _ _ _ _ _ _ _ hp] at h
    split at h
    · rename_i hn
      rcases hr : readParameters (zdoBytes c nwk data) c.request with e | p
      · rw [hr] at h; simp [Except.map] at h
      · rw [hr] at h
        simp only [Except.map, Except.ok.injEq] at h
        exact ⟨c, p, hc, rfl, hn, hr, h.symm⟩
    · simp at h
  · rw [fromCluster_zdo_unknown (fun c hc he => hu ⟨c, hc, he⟩) _ _ _ _ _ _ _ _ hp] at h
    simp at h

theorem readVals_cons {prev : Option Val} {p : String × ParameterType} {ps : Params}
    {buf rest : List UInt8} {vs : List Val} (h : readVals prev (p :: ps) buf = .ok (vs, rest)) :
    ∃ v vs' mid, vs = v :: vs' ∧ readParameter p.1 p.2 (optLength p.2 prev) buf = .ok (v, mid) ∧
      readVals (some v) ps mid = .ok (vs', rest) := by
  rw [readVals] at h
  simp only [bindR] at h
  rcases h1 : readParameter p.1 p.2 (optLength p.2 prev) buf with e | ⟨v, mid⟩
  · rw [h1] at h; simp at h
  rw [h1] at h
  dsimp only at h
  rcases h2 : readVals (some v) ps mid with e | ⟨vs', r⟩
  · rw [h2] at h; simp at h
  rw [h2] at h
  simp only [Except.ok.injEq, Prod.mk.injEq] at h
  exact ⟨v, vs', mid, h.1.symm, rfl, by rw [h2, h.2]⟩

/-- The first parameter of a message that starts with a 16-bit number. -/
theorem read_first16 {name : String} {ps : Params} (hn : (((name, ParameterType.UINT16) :: ps).map (·.1)).Nodup)
    {v : Nat} (hv : v < 65536) {rest : List UInt8} {payload : Payload}
    (h : readParameters (leBytes 2 v ++ rest) ((name, .UINT16) :: ps) = .ok payload) :
    payload.lookup name = some (.int v) := by
  rw [readParameters_eq _ hn] at h
  rw [readVals, rp_uint name _ .UINT16 2 (.inl ⟨rfl, rfl⟩)] at h
  have hr := (reads_readInt_le 2 v (by simpa using hv)).1 rest
  simp only [bindR, hr] at h
  rcases hv' : readVals (some (Val.int v)) ps rest with e | ⟨vs, r⟩
  · rw [hv'] at h; simp [Except.map] at h
  · rw [hv'] at h
    simp only [Except.map, Except.ok.injEq] at h
    rw [← h]; simp

/-- The second parameter after an address mode. -/
theorem read_second16 {n1 name : String} {ps : Params}
    (hn : (((n1, ParameterType.UINT8) :: (name, ParameterType.UINT16) :: ps).map (·.1)).Nodup)
    {b : UInt8} {v : Nat} (hv : v < 65536) {rest : List UInt8} {payload : Payload}
    (h : readParameters (b :: (leBytes 2 v ++ rest)) ((n1, .UINT8) :: (name, .UINT16) :: ps) = .ok payload) :
    payload.lookup name = some (.int v) := by
  have hne : (name == n1) = false := by
    simp only [List.map_cons, List.nodup_cons] at hn
    have := hn.1
    simp at this
    simpa using fun h => this.1 h.symm
  rw [readParameters_eq _ hn] at h
  rcases hv0 : readVals none ((n1, .UINT8) :: (name, .UINT16) :: ps) (b :: (leBytes 2 v ++ rest))
    with e | ⟨vs, r⟩
  · rw [hv0] at h; simp [Except.map] at h
  rw [hv0] at h
  simp only [Except.map, Except.ok.injEq] at h
  obtain ⟨v1, vs1, mid1, rfl, hr1, hv1⟩ := readVals_cons hv0
  obtain ⟨v2, vs2, mid2, rfl, hr2, hv2⟩ := readVals_cons hv1
  rw [rp_uint8] at hr1
  have h1 : readInt 1 (b :: (leBytes 2 v ++ rest)) = .ok (b.toNat, leBytes 2 v ++ rest) := by
    have := (reads_readInt 1 [b] rfl).1 (leBytes 2 v ++ rest)
    simpa [leValue] using this
  have hmid : mid1 = leBytes 2 v ++ rest := by
    simp only [bindR, h1] at hr1
    split at hr1
    · split at hr1
      · simp at hr1; exact hr1.2.symm
      · simp at hr1
    · simp at hr1; exact hr1.2.symm
  subst hmid
  rw [rp_uint name _ .UINT16 2 (.inl ⟨rfl, rfl⟩)] at hr2
  have hr := (reads_readInt_le 2 v (by simpa using hv)).1 rest
  simp only [bindR, hr, Except.ok.injEq, Prod.mk.injEq] at hr2
  rw [← h, ← hr2.1]
  simp [List.lookup_cons, hne]

/-- ZDO requests with a response of their own name: where the destination stands. -/
theorem zdo_req_dec : ∀ c ∈ defZDO, c.type = .SREQ → strEndsWith c.name "Req" = true →
    defZDO.any (fun d => String.ofList (replaceReq c.name.toList) == d.name) = true →
    (c.name ∈ ["nwkAddrReq", "ieeeAddrReq", "serverDiscReq"] ∧ "dstaddr" ∉ c.request.map (·.1)) ∨
    (c.name ∉ ["nwkAddrReq", "ieeeAddrReq", "serverDiscReq"] ∧
      ((c.name ≠ "mgmtPermitJoinReq" ∧ c.request.head? = some ("dstaddr", .UINT16)) ∨
       (c.name = "mgmtPermitJoinReq" ∧ c.request =
        [("addrmode", .UINT8), ("dstaddr", .UINT16), ("duration", .UINT8),
         ("tcsignificance", .UINT8)]))) := by
  decide +kernel

theorem zdo_base_dec : ∀ c ∈ defZDO, strEndsWith c.name "Req" = true →
    replaceReq c.name.toList = c.name.toList.take (c.name.toList.length - 3) ++ ['R', 's', 'p'] := by
  decide +kernel

theorem zdo_noprefix_dec : ∀ c ∈ defZDO, strStartsWith c.name "dataRequest" = false := by
  decide +kernel

/-- The destination address in the payload of a ZDO request. -/
theorem zdo_dstaddr {c : Cmd} (hc : InTable .ZDO c) (hS : c.type = .SREQ)
    (hR : strEndsWith c.name "Req" = true)
    (ha : defZDO.any (fun d => String.ofList (replaceReq c.name.toList) == d.name) = true)
    (hx : c.name ∉ ["nwkAddrReq", "ieeeAddrReq", "serverDiscReq"])
    {nwk : Int} (hn : IsUInt 2 nwk) {data : List UInt8} {payload : Payload}
    (h : readParameters (zdoBytes c nwk data) c.request = .ok payload) :
    payload.lookup "dstaddr" = some (.int nwk) := by
  obtain ⟨cs, h1, h2⟩ := id hc
  have hcs : cs = defZDO := by cases h1; rfl
  have hnd := (table_params hc).1
  have hlt : nwk.toNat < 65536 := by simpa using isUInt_toNat hn
  have hcast : ((nwk.toNat : Nat) : Int) = nwk := toNat_cast hn
  rcases zdo_req_dec c (hcs ▸ h2) hS hR ha with ⟨h, _⟩ | ⟨_, ⟨hne, hh⟩ | ⟨he, hps⟩⟩
  · exact absurd h hx
  · rcases hr : c.request with _ | ⟨p, ps⟩
    · rw [hr] at hh; simp at hh
    · rw [hr] at hh hnd h
      simp at hh
      subst hh
      unfold zdoBytes at h
      rw [if_neg hne, List.nil_append] at h
      rw [← hcast]
      exact read_first16 hnd hlt h
  · rw [hps] at h hnd
    unfold zdoBytes at h
    rw [if_pos he, List.cons_append, List.nil_append] at h
    rw [← hcast]
    exact read_second16 hnd hlt h

/-- A decoded payload has no fields but its parameters. -/
theorem lookup_absent {ps : Params} (hn : (ps.map (·.1)).Nodup) {data : List UInt8}
    {payload : Payload} (h : readParameters data ps = .ok payload) {name : String}
    (hx : name ∉ ps.map (·.1)) : payload.lookup name = none := by
  rw [readParameters_eq _ hn] at h
  rcases hv : readVals none ps data with e | ⟨vs, rest⟩
  · rw [hv] at h; simp [Except.map] at h
  · rw [hv] at h
    simp only [Except.map, Except.ok.injEq] at h
    subst h
    rw [List.lookup_eq_none_iff]
    intro p hp
    have : p.1 ∈ ps.map (·.1) := (List.of_mem_zip (a := p.1) (b := p.2) hp).1
    simp only [bne_iff_ne, ne_eq]
    intro he
    exact hx (he ▸ this)

/-- Commands of the ZDO table by name. -/
theorem zdo_exists (name : String) (h : name ∈ defZDO.map (·.name)) (n : String) (he : name = n) :
    ∃ d, InTable .ZDO d ∧ d.name = n := by
  obtain ⟨d, hd, rfl⟩ := List.mem_map.mp h
  exact ⟨d, ⟨defZDO, rfl, hd⟩, he⟩

/-- The ZDO requests that do not start with a destination address. -/
def undirected : List String := ["nwkAddrReq", "ieeeAddrReq", "serverDiscReq"]

theorem zdo_undirected_dec : ∀ c ∈ defZDO, c.name ∈ undirected → c.type = .SREQ := by
  decide +kernel

/-- What `create_response_waiter` decides for a ZDO request built from a cluster message. -/
theorem zdo_responseWaiter {nwk profile cluster srcEp dstEp sequence radius : Int}
    {data : List UInt8} {addrMode : Option Int} (hp : profile ≠ 260) {o : Obj}
    (h : Obj.fromCluster nwk profile cluster srcEp dstEp sequence data radius addrMode = .ok o)
    (ho : o.commandType = .SREQ) (base : List Char)
    (hb : o.command = String.ofList (base ++ ['R', 'e', 'q']))
    (hr : ∃ d, InTable .ZDO d ∧ d.name = String.ofList (base ++ ['R', 's', 'p']))
    (q : Option Int) :
    (o.command ∉ undirected → responseWaiter o q = .ok (some
      (⟨.AREQ, .ZDO, String.ofList (base ++ ['R', 's', 'p']), [("srcaddr", .int nwk)]⟩, q))) ∧
    (o.command ∈ undirected → responseWaiter o q = .error (.keyError "dstaddr")) := by
  obtain ⟨c, payload, hc, hid, hn, hread, rfl⟩ := fromCluster_zdo_ok hp h
  obtain ⟨cs, hcs, hmem⟩ := hc
  have hcs' : cs = defZDO := by simpa [definition] using hcs.symm
  subst hcs'
  dsimp only at ho hb ⊢
  have hend : strEndsWith c.name "Req" = true := by
    rw [strEndsWith_iff, hb]
    refine ⟨base, ?_⟩
    simp
  have hrep : String.ofList (replaceReq c.name.toList) = String.ofList (base ++ ['R', 's', 'p']) := by
    rw [zdo_base_dec c hmem hend, hb]
    simp
  have hany : defZDO.any (fun d => String.ofList (replaceReq c.name.toList) == d.name) = true := by
    obtain ⟨d, ⟨cs, h1, h2⟩, h3⟩ := hr
    have : cs = defZDO := by simpa [definition] using h1.symm
    subst this
    rw [List.any_eq_true]
    refine ⟨d, h2, ?_⟩
    rw [hrep, h3]
    simp
  have hunf : responseWaiter (zdoObj c sequence payload) q =
      (dictGet payload "dstaddr" >>= fun v => .ok (some
        (⟨.AREQ, .ZDO, String.ofList (base ++ ['R', 's', 'p']), [("srcaddr", v)]⟩, q))) := by
    unfold responseWaiter
    rw [if_neg (by rw [zdo_noprefix_dec c hmem]; simp), if_pos ⟨ho, hend⟩]
    dsimp only
    rw [show definitionGet Subsystem.ZDO = .ok defZDO from rfl, ok_bind, if_pos hany, hrep]
    rfl
  rw [hunf]
  constructor
  · intro hx
    have := zdo_dstaddr ⟨defZDO, hcs, hmem⟩ ho hend hany hx hn hread
    unfold dictGet
    rw [this]
    rfl
  · intro hx
    have hno : payload.lookup "dstaddr" = none := by
      rcases zdo_req_dec c hmem ho hend hany with ⟨_, h⟩ | ⟨h, _⟩
      · exact lookup_absent (table_params ⟨defZDO, hcs, hmem⟩).1 hread h
      · exact absurd hx h
    unfold dictGet
    rw [hno]
    rfl

end Zcc
