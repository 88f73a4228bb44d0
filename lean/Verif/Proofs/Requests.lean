import Verif.Proofs.App
import Verif.Proofs.Cluster
import Verif.Proofs.Handling
import Verif.Spec.Requests

/-!
# The frames of outgoing requests (helper lemmas)
-/

namespace Zcc

open Spec

theorem bind_ok_iff {ε α β : Type} {x : Except ε α} {f : α → Except ε β} {b : β} :
    (x >>= f) = .ok b ↔ ∃ a, x = .ok a ∧ f a = .ok b := by
  rcases x with e | a
  · constructor
    · intro h; cases h
    · rintro ⟨a, h, _⟩; cases h
  · constructor
    · intro h; exact ⟨a, rfl, h⟩
    · rintro ⟨a', h, h'⟩; cases h; exact h'

theorem writeInt_ok_iff {v : Int} {w : Nat} {b : List UInt8} :
    writeInt v w = .ok b ↔ IsUInt w v ∧ b = leBytes w v.toNat := by
  have : writeInt v w = if IsUInt w v then .ok (leBytes w v.toNat) else .error .overflowError := rfl
  rw [this]
  split
  · rename_i h; simp [h, eq_comm]
  · rename_i h; simp [h]

theorem leBytes_u8 (v : Int) : leBytes 1 v.toNat = [u8 v] := by
  simp only [leBytes, u8, List.cons.injEq, and_true]
  apply UInt8.toNat_inj.mp
  simp

theorem leBytes_le64 (n : Nat) : leBytes 8 n = le64 n := by
  simp [leBytes, le64, List.range, List.range.loop, Nat.div_div_eq_div_mul]

theorem written_iff {o : Obj} {b : List UInt8} :
    WrittenAs o b ↔ ∃ data, writeParameters o.payload o.parameters = .ok data ∧
      Fits (.of o.commandType o.subsystem o.commandId data) ∧
      b = wire (.of o.commandType o.subsystem o.commandId data) := by
  unfold WrittenAs Obj.toUnpiFrame
  simp only [bind_ok_iff, pure_ok, Except.ok.injEq]
  constructor
  · rintro ⟨f, ⟨data, h1, rfl⟩, h2⟩
    rw [Gateway.send, toBuffer_eq] at h2
    split at h2
    · rename_i h; cases h2; exact ⟨data, h1, h, rfl⟩
    · cases h2
  · rintro ⟨data, h1, h2, rfl⟩
    refine ⟨_, ⟨data, h1, rfl⟩, ?_⟩
    rw [Gateway.send, toBuffer_eq, if_pos h2]

def dataRequestCmd : Cmd :=
  { name := "dataRequest", id := 1, type := .SREQ,
    request := [("dstaddr", .UINT16), ("destendpoint", .UINT8), ("srcendpoint", .UINT8), ("clusterid", .UINT16), ("transid", .UINT8), ("options", .UINT8), ("radius", .UINT8), ("len", .UINT8), ("data", .BUFFER)],
    response := some [("status", .UINT8)] }

def dataRequestExtCmd : Cmd :=
  { name := "dataRequestExt", id := 2, type := .SREQ,
    request := [("dstaddrmode", .UINT8), ("dstaddr", .IEEEADDR), ("destendpoint", .UINT8), ("dstpanid", .UINT16), ("srcendpoint", .UINT8), ("clusterid", .UINT16), ("transid", .UINT8), ("options", .UINT8), ("radius", .UINT8), ("len", .UINT16), ("data", .BUFFER)],
    response := some [("status", .UINT8)] }

/-- The object of a unicast ZCL request. -/
def unicastObj (nwk cluster srcEp dstEp sequence : Int) (data : List UInt8) (radius : Int) : Obj :=
  { commandType := .SREQ, subsystem := .AF, command := "dataRequest", commandId := 1,
    payload := (dataRequestCmd.request.map (·.1)).zip
      [.int nwk, .int dstEp, .int srcEp, .int cluster, .int sequence, .int 0, .int radius,
       .int data.length, .bytes data]
    parameters := dataRequestCmd.request, sequence := some sequence }

/-- The object of a ZCL group request or broadcast. -/
def extObj (mode : Int) (address cluster srcEp dstEp sequence radius : Int) (data : List UInt8) :
    Obj :=
  { commandType := .SREQ, subsystem := .AF, command := "dataRequestExt", commandId := 2,
    payload := (dataRequestExtCmd.request.map (·.1)).zip
      [.int mode, .int address, .int dstEp, .int 0, .int srcEp, .int cluster, .int sequence,
       .int 0, .int radius, .int data.length, .bytes data]
    parameters := dataRequestExtCmd.request, sequence := some sequence }

theorem fromCluster_unicast (nwk cluster srcEp dstEp sequence : Int) (data : List UInt8)
    (radius : Int) :
    Obj.fromCluster nwk 260 cluster srcEp dstEp sequence data radius none =
      .ok (unicastObj nwk cluster srcEp dstEp sequence data radius) := by
  have h : nextCmd defAF (fun c => c.id == 1) = .ok dataRequestCmd := by decide +kernel
  unfold Obj.fromCluster
  simp only [if_pos (show (260 : Int) = zhaProfile from rfl),
    show definitionGet .AF = .ok defAF from rfl, ok_bind, Option.isNone_none, if_true, h, pure_ok]
  rfl

theorem fromCluster_ext (mode : Int) (address cluster srcEp dstEp sequence radius : Int)
    (data : List UInt8) :
    Obj.fromCluster address 260 cluster srcEp dstEp sequence data radius (some mode) =
      .ok (extObj mode address cluster srcEp dstEp sequence radius data) := by
  have h : nextCmd defAF (fun c => c.id == 2) = .ok dataRequestExtCmd := by decide +kernel
  unfold Obj.fromCluster
  simp only [if_pos (show (260 : Int) = zhaProfile from rfl),
    show definitionGet .AF = .ok defAF from rfl, ok_bind, Option.isNone_some, Bool.false_eq_true, if_false, h, pure_ok]
  rfl

theorem isUInt1_len {n : Nat} : IsUInt 1 (n : Int) ↔ n < 256 := by
  unfold IsUInt
  constructor
  · intro h; have := h.2; simp at this; omega
  · intro h; exact ⟨by omega, by simpa using by omega⟩

theorem isUInt2_len {n : Nat} : IsUInt 2 (n : Int) ↔ n < 65536 := by
  unfold IsUInt
  constructor
  · intro h; have := h.2; simp at this; omega
  · intro h; exact ⟨by omega, by simpa using by omega⟩

theorem unicast_written (nwk cluster srcEp dstEp sequence : Int) (data b : List UInt8) :
    WrittenAs (unicastObj nwk cluster srcEp dstEp sequence data 30) b ↔
      UnicastFits nwk cluster srcEp dstEp sequence data ∧
      b = wire (unicastFrame nwk cluster srcEp dstEp sequence data) := by
  rw [written_iff]
  have key : ∀ bs, writeParameters (unicastObj nwk cluster srcEp dstEp sequence data 30).payload
      (unicastObj nwk cluster srcEp dstEp sequence data 30).parameters = .ok bs ↔
      (IsUInt 2 nwk ∧ IsUInt 1 dstEp ∧ IsUInt 1 srcEp ∧ IsUInt 2 cluster ∧ IsUInt 1 sequence ∧
        data.length < 256) ∧ bs = (unicastFrame nwk cluster srcEp dstEp sequence data).data := by
    intro bs
    unfold unicastObj
    dsimp only
    rw [write_zip rfl (by decide +kernel)]
    simp only [dataRequestCmd, writeVals, writeParameter, writeScalar, bind_ok_iff, pure_ok,
      Except.ok.injEq, writeInt_ok_iff, isUInt1_len]
    have h0 : IsUInt 1 0 := by decide
    have h30 : IsUInt 1 30 := by decide
    constructor
    · rintro ⟨_, ⟨h1, rfl⟩, _, ⟨_, ⟨h2, rfl⟩, _, ⟨_, ⟨h3, rfl⟩, _, ⟨_, ⟨h4, rfl⟩, _, ⟨_, ⟨h5, rfl⟩,
        _, ⟨_, ⟨_, rfl⟩, _, ⟨_, ⟨_, rfl⟩, _, ⟨_, ⟨h6, rfl⟩, _, ⟨_, rfl, _, rfl, rfl⟩, rfl⟩, rfl⟩, rfl⟩,
        rfl⟩, rfl⟩, rfl⟩, rfl⟩, rfl⟩
      refine ⟨⟨h1, h2, h3, h4, h5, h6⟩, ?_⟩
      simp only [leBytes_u8, le16_leBytes, unicastFrame, List.append_nil, List.append_assoc,
        List.cons_append, List.nil_append]
      rfl
    · rintro ⟨⟨h1, h2, h3, h4, h5, h6⟩, rfl⟩
      refine ⟨_, ⟨h1, rfl⟩, _, ⟨_, ⟨h2, rfl⟩, _, ⟨_, ⟨h3, rfl⟩, _, ⟨_, ⟨h4, rfl⟩, _, ⟨_, ⟨h5, rfl⟩,
        _, ⟨_, ⟨h0, rfl⟩, _, ⟨_, ⟨h30, rfl⟩, _, ⟨_, ⟨h6, rfl⟩, _, ⟨_, rfl, _, rfl, rfl⟩, rfl⟩, rfl⟩, rfl⟩,
        rfl⟩, rfl⟩, rfl⟩, rfl⟩, ?_⟩
      simp only [leBytes_u8, le16_leBytes, unicastFrame, List.append_nil, List.append_assoc,
        List.cons_append, List.nil_append]
      rfl
  have hlen : (unicastFrame nwk cluster srcEp dstEp sequence data).data.length = 10 + data.length := by
    simp [unicastFrame, le16]; omega
  have hid : (unicastObj nwk cluster srcEp dstEp sequence data 30).commandId < 256 := by
    show 1 < 256; decide
  unfold UnicastFits
  constructor
  · rintro ⟨bs, h1, h2, rfl⟩
    obtain ⟨⟨h3, h4, h5, h6, h7, h8⟩, rfl⟩ := (key bs).mp h1
    have h9 : (unicastFrame nwk cluster srcEp dstEp sequence data).data.length < 256 := h2.1
    exact ⟨⟨h3, h4, h5, h6, h7, by omega⟩, rfl⟩
  · rintro ⟨⟨h3, h4, h5, h6, h7, h8⟩, rfl⟩
    refine ⟨_, (key _).mpr ⟨⟨h3, h4, h5, h6, h7, by omega⟩, rfl⟩, ⟨?_, hid⟩, rfl⟩
    show (unicastFrame nwk cluster srcEp dstEp sequence data).data.length < 256
    omega

theorem ext_written (mode : UInt8) (address cluster srcEp dstEp sequence radius : Int)
    (data b : List UInt8) :
    WrittenAs (extObj mode.toNat address cluster srcEp dstEp sequence radius data) b ↔
      ExtFits address cluster srcEp dstEp sequence radius data ∧
      b = wire (extFrame mode address cluster srcEp dstEp sequence radius data) := by
  rw [written_iff]
  have key : ∀ bs, writeParameters (extObj mode.toNat address cluster srcEp dstEp sequence radius data).payload
      (extObj mode.toNat address cluster srcEp dstEp sequence radius data).parameters = .ok bs ↔
      (IsUInt 8 address ∧ IsUInt 1 dstEp ∧ IsUInt 1 srcEp ∧ IsUInt 2 cluster ∧ IsUInt 1 sequence ∧
        IsUInt 1 radius ∧ data.length < 65536) ∧
      bs = (extFrame mode address cluster srcEp dstEp sequence radius data).data := by
    intro bs
    unfold extObj
    dsimp only
    rw [write_zip rfl (by decide +kernel)]
    simp only [dataRequestExtCmd, writeVals, writeParameter, writeScalar, bind_ok_iff, pure_ok,
      Except.ok.injEq, writeInt_ok_iff, isUInt2_len]
    have h0 : IsUInt 1 0 := by decide
    have hp : IsUInt 2 0 := by decide
    constructor
    · rintro ⟨_, ⟨_, rfl⟩, _, ⟨_, ⟨h1, rfl⟩, _, ⟨_, ⟨h2, rfl⟩, _, ⟨_, ⟨_, rfl⟩, _, ⟨_, ⟨h3, rfl⟩,
        _, ⟨_, ⟨h4, rfl⟩, _, ⟨_, ⟨h5, rfl⟩, _, ⟨_, ⟨_, rfl⟩, _, ⟨_, ⟨h6, rfl⟩, _, ⟨_, ⟨h7, rfl⟩, _,
        ⟨_, rfl, _, rfl, rfl⟩, rfl⟩, rfl⟩, rfl⟩, rfl⟩, rfl⟩, rfl⟩, rfl⟩, rfl⟩, rfl⟩, rfl⟩
      refine ⟨⟨h1, h2, h3, h4, h5, h6, h7⟩, ?_⟩
      simp only [leBytes_u8, le16_leBytes, leBytes_le64, Int.toNat_natCast, leBytes_one, extFrame,
        List.append_nil, List.append_assoc, List.cons_append, List.nil_append]
      rfl
    · rintro ⟨⟨h1, h2, h3, h4, h5, h6, h7⟩, rfl⟩
      refine ⟨_, ⟨u8_isUInt _, rfl⟩, _, ⟨_, ⟨h1, rfl⟩, _, ⟨_, ⟨h2, rfl⟩, _, ⟨_, ⟨hp, rfl⟩, _,
        ⟨_, ⟨h3, rfl⟩, _, ⟨_, ⟨h4, rfl⟩, _, ⟨_, ⟨h5, rfl⟩, _, ⟨_, ⟨h0, rfl⟩, _, ⟨_, ⟨h6, rfl⟩, _,
        ⟨_, ⟨h7, rfl⟩, _, ⟨_, rfl, _, rfl, rfl⟩, rfl⟩, rfl⟩, rfl⟩, rfl⟩, rfl⟩, rfl⟩, rfl⟩, rfl⟩,
        rfl⟩, ?_⟩
      simp only [leBytes_u8, le16_leBytes, leBytes_le64, Int.toNat_natCast, leBytes_one, extFrame,
        List.append_nil, List.append_assoc, List.cons_append, List.nil_append]
      rfl
  have hlen : (extFrame mode address cluster srcEp dstEp sequence radius data).data.length =
      20 + data.length := by
    simp [extFrame, le16, le64]; omega
  have hid : (extObj mode.toNat address cluster srcEp dstEp sequence radius data).commandId < 256 := by
    show 2 < 256; decide
  unfold ExtFits
  constructor
  · rintro ⟨bs, h1, h2, rfl⟩
    obtain ⟨⟨h3, h4, h5, h6, h7, h8, h9⟩, rfl⟩ := (key bs).mp h1
    have h9 : (extFrame mode address cluster srcEp dstEp sequence radius data).data.length < 256 := h2.1
    exact ⟨⟨h3, h4, h5, h6, h7, h8, by omega⟩, rfl⟩
  · rintro ⟨⟨h3, h4, h5, h6, h7, h8, h9⟩, rfl⟩
    refine ⟨_, (key _).mpr ⟨⟨h3, h4, h5, h6, h7, h8, by omega⟩, rfl⟩, ⟨?_, hid⟩, rfl⟩
    show (extFrame mode address cluster srcEp dstEp sequence radius data).data.length < 256
    omega

/-! ## ZDO requests -/

/-- The bytes `bs` are exactly what the parameters `ps` consume. -/
def Consumes (prev : Option Val) (ps : Params) (bs : List UInt8) : Prop :=
  ∃ vs, Reads (readVals prev ps) vs bs

theorem consumes_nil (prev : Option Val) : Consumes prev [] [] := ⟨[], reads_pure _⟩

theorem consumes_cons {prev : Option Val} {p : String × ParameterType} {ps : Params} {v : Val}
    {bs cs : List UInt8} (h : Reads (readParameter p.1 p.2 (optLength p.2 prev)) v bs)
    (h' : Consumes (some v) ps cs) : Consumes prev (p :: ps) (bs ++ cs) := by
  obtain ⟨vs, hv⟩ := h'
  refine ⟨v :: vs, ?_⟩
  have := reads_bind h (f := fun v => bindR (readVals (some v) ps) (fun vs buf => .ok (v :: vs, buf)))
    (reads_bind hv (f := fun vs buf => .ok (v :: vs, buf)) (reads_pure _))
  rw [List.append_nil] at this
  exact this

theorem consumes_u8 {prev : Option Val} {name : String} {ps : Params} {b : UInt8} {cs : List UInt8}
    (hn : strEndsWith name "addrmode" = false ∨ b.toNat ∈ addressModes)
    (h : Consumes (some (.int b.toNat)) ps cs) :
    Consumes prev ((name, .UINT8) :: ps) (b :: cs) := by
  have hr : Reads (readParameter name .UINT8 (optLength .UINT8 prev)) (.int b.toNat) [b] := by
    rw [rp_uint8, ← List.append_nil [b]]
    have h1 : Reads (readInt 1) b.toNat [b] := by
      have := reads_readInt 1 [b] rfl
      simpa [leValue] using this
    refine reads_bind h1 ?_
    rcases hn with hn | hn
    · simp only [hn, Bool.false_eq_true, if_false]; exact reads_pure _
    · simp only [hn, if_true, ite_self]; exact reads_pure _
  exact consumes_cons (p := (name, .UINT8)) hr h

theorem consumes_u16 {prev : Option Val} {name : String} {ps : Params} {a b : UInt8}
    {cs : List UInt8} (h : ∀ v, Consumes (some v) ps cs) :
    Consumes prev ((name, .UINT16) :: ps) (a :: b :: cs) := by
  have hr : Reads (readParameter name .UINT16 (optLength .UINT16 prev))
      (.int (leValue [a, b])) [a, b] := by
    rw [rp_uint name _ _ 2 (by simp), ← List.append_nil [a, b]]
    exact reads_bind (reads_readInt 2 [a, b] rfl) (reads_pure _)
  exact consumes_cons (p := (name, .UINT16)) hr (h _)

theorem consumes_u32 {prev : Option Val} {name : String} {ps : Params} {a b c d : UInt8}
    {cs : List UInt8} (h : ∀ v, Consumes (some v) ps cs) :
    Consumes prev ((name, .UINT32) :: ps) (a :: b :: c :: d :: cs) := by
  have hr : Reads (readParameter name .UINT32 (optLength .UINT32 prev))
      (.int (leValue [a, b, c, d])) [a, b, c, d] := by
    rw [rp_uint name _ _ 4 (by simp), ← List.append_nil [a, b, c, d]]
    exact reads_bind (reads_readInt 4 [a, b, c, d] rfl) (reads_pure _)
  exact consumes_cons (p := (name, .UINT32)) hr (h _)

theorem consumes_ieee {prev : Option Val} {name : String} {ps : Params} {bs cs : List UInt8}
    (hb : bs.length = 8) (h : ∀ v, Consumes (some v) ps cs) :
    Consumes prev ((name, .IEEEADDR) :: ps) (bs ++ cs) := by
  have hr : ∃ v, Reads (readParameter name .IEEEADDR (optLength .IEEEADDR prev)) v bs := by
    refine ⟨.eui bs, ?_⟩
    rw [rp_ieee, ← List.append_nil bs]
    exact cast (by simp) (reads_bind (f := fun res buf => .ok (Val.eui res, buf))
      (reads_readBytes 8 bs hb) (reads_pure _))
  obtain ⟨v, hr⟩ := hr
  exact consumes_cons (p := (name, .IEEEADDR)) hr (h _)

theorem reads_ints16 (n : Nat) : ∀ bs : List UInt8, bs.length = 2 * n →
    ∃ vs, Reads (readInts 2 n) vs bs := by
  induction n with
  | zero =>
    intro bs h
    match bs, h with
    | [], _ => exact ⟨[], reads_pure _⟩
  | succ n ih =>
    intro bs h
    match bs, h with
    | a :: b :: bs, h =>
      obtain ⟨vs, hv⟩ := ih bs (by simp at h; omega)
      refine ⟨((leValue [a, b] : Nat) : Int) :: vs, ?_⟩
      rw [readInts_succ]
      have := reads_bind (reads_readInt 2 [a, b] rfl) (f := fun v : Nat =>
        bindR (readInts 2 n) (fun vs buf => .ok ((v : Int) :: vs, buf)))
        (reads_bind hv (f := fun vs buf => .ok (((leValue [a, b] : Nat) : Int) :: vs, buf)) (reads_pure _))
      rw [List.append_nil] at this
      exact this

theorem consumes_list16 {name : String} {ps : Params} {n : UInt8} {bs cs : List UInt8}
    (hb : bs.length = 2 * n.toNat) (h : ∀ v, Consumes (some v) ps cs) :
    Consumes (some (.int n.toNat)) ((name, .LIST_UINT16) :: ps) (bs ++ cs) := by
  have hr : ∃ v, Reads (readParameter name .LIST_UINT16
      (optLength .LIST_UINT16 (some (.int n.toNat)))) v bs := by
    obtain ⟨vs, hv⟩ := reads_ints16 n.toNat bs hb
    refine ⟨.ints vs, ?_⟩
    rw [show optLength .LIST_UINT16 (some (.int (n.toNat : Int))) = some n.toNat from by
      rw [optLength_numeric _ rfl]; rfl, rp_list name _ _ 2 (by simp), ← List.append_nil bs]
    exact cast (by simp) (reads_bind (f := fun res buf => .ok (Val.ints res, buf)) hv (reads_pure _))
  obtain ⟨v, hr⟩ := hr
  exact consumes_cons (p := (name, .LIST_UINT16)) hr (h _)

/-- What is written of a payload that was read from bytes that its parameters consume. -/
theorem consumes_write {ps : Params} (hn : (ps.map (·.1)).Nodup)
    (hw : ∀ p ∈ ps, Writable p.2 ∧ p.2 ≠ .LIST_NEIGHBOR_LQI) {bs : List UInt8}
    (h : Consumes none ps bs) (rest : List UInt8) :
    ∃ payload, readParameters (bs ++ rest) ps = .ok payload ∧ writeParameters payload ps = .ok bs := by
  obtain ⟨vs, hv⟩ := h
  have h1 := hv.1 rest
  refine ⟨(ps.map (·.1)).zip vs, ?_, ?_⟩
  · rw [readParameters_eq _ hn, h1]; rfl
  · rw [write_zip (readVals_length h1) hn]
    obtain ⟨bs', h2, h3⟩ := readVals_write ps hw _ _ _ _ h1
    rw [h2, List.append_cancel_right h3]

theorem zdoBody_cases {cluster : Nat} {body : List UInt8} (h : ZdoBody cluster body) :
    ∃ c ∈ defZDO, c.id = cluster ∧ c.type = .SREQ ∧ (c.name = "mgmtPermitJoinReq" ↔ cluster = 0x36) ∧
      (∀ p ∈ c.request, Writable p.2 ∧ p.2 ≠ .LIST_NEIGHBOR_LQI) ∧
      ∀ (m a b : UInt8), m.toNat ∈ addressModes →
        Consumes none c.request ((if cluster = 0x36 then [m] else []) ++ [a, b] ++ body) := by
  have pick : ∀ n ps, (defZDO.any (fun c => c.id == n && c.type == .SREQ &&
      (c.name == "mgmtPermitJoinReq") == (n == 0x36) && c.request == ps)) = true →
      ∃ c ∈ defZDO, c.id = n ∧ c.type = .SREQ ∧ (c.name = "mgmtPermitJoinReq" ↔ n = 0x36) ∧
        c.request = ps := by
    intro n ps hn
    rw [List.any_eq_true] at hn
    obtain ⟨c, hc, h⟩ := hn
    simp only [Bool.and_eq_true, beq_iff_eq] at h
    refine ⟨c, hc, h.1.1.1, h.1.1.2, ?_, h.2⟩
    have := h.1.2
    rw [Bool.eq_iff_iff] at this
    simpa using this
  have fin : ∀ ps, (∃ c ∈ defZDO, c.id = cluster ∧ c.type = .SREQ ∧
      (c.name = "mgmtPermitJoinReq" ↔ cluster = 0x36) ∧ c.request = ps) →
      (∀ p ∈ ps, Writable p.2 ∧ p.2 ≠ .LIST_NEIGHBOR_LQI) →
      (∀ (m a b : UInt8), m.toNat ∈ addressModes →
        Consumes none ps ((if cluster = 0x36 then [m] else []) ++ [a, b] ++ body)) →
      ∃ c ∈ defZDO, c.id = cluster ∧ c.type = .SREQ ∧
      (c.name = "mgmtPermitJoinReq" ↔ cluster = 0x36) ∧
      (∀ p ∈ c.request, Writable p.2 ∧ p.2 ≠ .LIST_NEIGHBOR_LQI) ∧
      ∀ (m a b : UInt8), m.toNat ∈ addressModes →
        Consumes none c.request ((if cluster = 0x36 then [m] else []) ++ [a, b] ++ body) := by
    rintro ps ⟨c, h1, h2, h3, h4, rfl⟩ hw hc
    exact ⟨c, h1, h2, h3, h4, hw, hc⟩
  cases h with
  | desc _ h a b =>
    refine fin [("dstaddr", .UINT16), ("nwkaddrofinterest", .UINT16)] (pick _ _ ?_) (by decide) ?_
    · clear fin; revert h; revert cluster; decide +kernel
    · intro m x y _
      rw [if_neg (by clear fin; revert h; revert cluster; decide)]
      exact consumes_u16 (fun _ => consumes_u16 (fun _ => consumes_nil _))
  | simple a b ep =>
    refine fin [("dstaddr", .UINT16), ("nwkaddrofinterest", .UINT16), ("endpoint", .UINT8)]
      (pick _ _ (by decide +kernel)) (by decide) ?_
    intro m x y _
    exact consumes_u16 (fun _ => consumes_u16 (fun _ =>
      consumes_u8 (.inl (by decide +kernel)) (consumes_nil _)))
  | matchDesc a b p q n m ins outs hi ho =>
    refine fin [("dstaddr", .UINT16), ("nwkaddrofinterest", .UINT16), ("profileid", .UINT16), ("numinclusters", .UINT8), ("inclusterlist", .LIST_UINT16), ("numoutclusters", .UINT8), ("outclusterlist", .LIST_UINT16)]
      (pick _ _ (by decide +kernel)) (by decide) ?_
    intro m' x y _
    have h2 : ∀ v, Consumes (some v) [("numoutclusters", .UINT8), ("outclusterlist", .LIST_UINT16)]
        (m :: (outs ++ [])) := fun v =>
      consumes_u8 (.inl (by decide +kernel)) (consumes_list16 ho (fun _ => consumes_nil _))
    have := consumes_u16 (prev := none) (name := "dstaddr") (a := x) (b := y) (fun _ =>
      consumes_u16 (name := "nwkaddrofinterest") (a := a) (b := b) (fun _ =>
      consumes_u16 (name := "profileid") (a := p) (b := q) (fun _ =>
      consumes_u8 (name := "numinclusters") (.inl (by decide +kernel))
        (consumes_list16 (name := "inclusterlist") hi h2))))
    simpa using this
  | bind _ h src dst ep c d de hs hd =>
    refine fin [("dstaddr", .UINT16), ("srcaddr", .IEEEADDR), ("srcendpoint", .UINT8), ("clusterid", .UINT16), ("dstaddrmode", .UINT8), ("dstaddress", .IEEEADDR), ("dstendpoint", .UINT8)]
      (pick _ _ ?_) (by decide) ?_
    · clear fin; revert h; revert cluster; decide +kernel
    · intro m x y _
      rw [if_neg (by clear fin; revert h; revert cluster; decide)]
      have := consumes_u16 (prev := none) (name := "dstaddr") (a := x) (b := y) (fun _ =>
        consumes_ieee (name := "srcaddr") hs (fun _ =>
        consumes_u8 (name := "srcendpoint") (b := ep) (.inl (by decide +kernel))
        (consumes_u16 (name := "clusterid") (a := c) (b := d) (fun _ =>
        consumes_u8 (name := "dstaddrmode") (b := 3) (.inr (by decide))
        (consumes_ieee (name := "dstaddress") hd (fun _ =>
        consumes_u8 (name := "dstendpoint") (b := de) (.inl (by decide +kernel)) (consumes_nil _)))))))
      simpa using this
  | nwkDisc c0 c1 c2 c3 dur start =>
    refine fin [("dstaddr", .UINT16), ("scanchannels", .UINT32), ("scanduration", .UINT8), ("startindex", .UINT8)]
      (pick _ _ (by decide +kernel)) (by decide) ?_
    intro m x y _
    exact consumes_u16 (fun _ => consumes_u32 (fun _ => consumes_u8 (.inl (by decide +kernel))
      (consumes_u8 (.inl (by decide +kernel)) (consumes_nil _))))
  | table _ h start =>
    refine fin [("dstaddr", .UINT16), ("startindex", .UINT8)] (pick _ _ ?_) (by decide) ?_
    · clear fin; revert h; revert cluster; decide +kernel
    · intro m x y _
      rw [if_neg (by clear fin; revert h; revert cluster; decide)]
      exact consumes_u16 (fun _ => consumes_u8 (.inl (by decide +kernel)) (consumes_nil _))
  | device _ h ieee flags hi =>
    have main : ∀ n1 n2, strEndsWith n2 "addrmode" = false → ∀ (x y : UInt8),
        Consumes none [("dstaddr", .UINT16), (n1, .IEEEADDR), (n2, .UINT8)]
          ([] ++ [x, y] ++ (ieee ++ [flags])) := fun n1 n2 hn x y =>
      consumes_u16 (fun _ => consumes_ieee (bs := ieee) (cs := [flags]) hi (fun _ => consumes_u8 (.inl hn) (consumes_nil _)))
    rw [List.mem_cons, List.mem_singleton] at h
    rcases h with rfl | rfl
    · exact fin [("dstaddr", .UINT16), ("deviceaddress", .IEEEADDR), ("removechildrenRejoin", .UINT8)]
        (pick _ _ (by decide +kernel)) (by decide) (fun m x y _ => main _ _ (by decide +kernel) x y)
    · exact fin [("dstaddr", .UINT16), ("deviceaddr", .IEEEADDR), ("capinfo", .UINT8)]
        (pick _ _ (by decide +kernel)) (by decide) (fun m x y _ => main _ _ (by decide +kernel) x y)
  | permit duration tc =>
    refine fin [("addrmode", .UINT8), ("dstaddr", .UINT16), ("duration", .UINT8), ("tcsignificance", .UINT8)]
      (pick _ _ (by decide +kernel)) (by decide) ?_
    intro m x y hm
    exact consumes_u8 (.inr hm) (consumes_u16 (fun _ => consumes_u8 (.inl (by decide +kernel))
      (consumes_u8 (.inl (by decide +kernel)) (consumes_nil _))))

/-- What is written, if the parameters of the command are read from just these bytes. -/
theorem zdo_written_of {cluster : Nat} {body : List UInt8}
    (hb : ∃ c ∈ defZDO, c.id = cluster ∧ c.type = .SREQ ∧
      (c.name = "mgmtPermitJoinReq" ↔ cluster = 0x36) ∧
      (∀ p ∈ c.request, Writable p.2 ∧ p.2 ≠ .LIST_NEIGHBOR_LQI) ∧
      ∀ (m a b : UInt8), m.toNat ∈ addressModes →
        Consumes none c.request ((if cluster = 0x36 then [m] else []) ++ [a, b] ++ body))
    (nwk profile srcEp dstEp sequence : Int) (tsn : UInt8) (radius : Int) (addrMode : Option Int)
    (hp : profile ≠ 260) (hn : IsUInt 2 nwk) (trailing : List UInt8) :
    ∃ o, Obj.fromCluster nwk profile cluster srcEp dstEp sequence (tsn :: (body ++ trailing)) radius addrMode = .ok o ∧
      o.toUnpiFrame = .ok (zdoFrame nwk cluster body) ∧ o.commandType = .SREQ := by
  obtain ⟨c, hc, rfl, ht, hname, hw, hcons⟩ := hb
  have hin : InTable .ZDO c := ⟨_, rfl, hc⟩
  rw [fromCluster_zdo_eq hin _ _ _ _ _ _ _ _ hp, if_pos hn]
  have hm : ∀ m : UInt8, m = (if nwk = 0xFFFC then 15 else 2) → m.toNat ∈ addressModes := by
    rintro m rfl; split <;> decide
  obtain ⟨payload, h1, h2⟩ := consumes_write (table_params hin).1 hw
    (hcons (if nwk = 0xFFFC then 15 else 2) (UInt8.ofNat (nwk.toNat % 256))
      (UInt8.ofNat (nwk.toNat / 256 % 256)) (hm _ rfl)) trailing
  have hz : zdoBytes c nwk (tsn :: (body ++ trailing)) = (if c.id = 0x36 then
      [if nwk = 0xFFFC then 15 else 2] else []) ++ [UInt8.ofNat (nwk.toNat % 256),
      UInt8.ofNat (nwk.toNat / 256 % 256)] ++ body ++ trailing := by
    unfold zdoBytes
    rw [le16_leBytes, List.append_assoc _ body trailing]
    simp only [hname]
    rfl
  rw [hz, h1]
  refine ⟨_, rfl, ?_, ht⟩
  unfold Obj.toUnpiFrame
  rw [h2, ok_bind, pure_ok]
  dsimp only
  rw [ht]
  rfl

/-- A ZDO request with a body of the right layout. -/
theorem zdo_written {cluster : Nat} {body : List UInt8} (hb : ZdoBody cluster body)
    (nwk profile srcEp dstEp sequence : Int) (tsn : UInt8) (radius : Int) (addrMode : Option Int)
    (hp : profile ≠ 260) (hn : IsUInt 2 nwk) (trailing : List UInt8) :
    ∃ o, Obj.fromCluster nwk profile cluster srcEp dstEp sequence (tsn :: (body ++ trailing)) radius addrMode = .ok o ∧
      o.toUnpiFrame = .ok (zdoFrame nwk cluster body) ∧ o.commandType = .SREQ :=
  zdo_written_of (zdoBody_cases hb) nwk profile srcEp dstEp sequence tsn radius addrMode hp hn trailing

/-- The requests for an address: what is read of the destination and the body. -/
theorem zdoAddress_cases {cluster : Nat} {body : List UInt8}
    (h : (cluster = 0 ∧ body.length = 8) ∨ (cluster = 1 ∧ body.length = 2)) :
    ∃ c ∈ defZDO, c.id = cluster ∧ c.type = .SREQ ∧
      (c.name = "mgmtPermitJoinReq" ↔ cluster = 0x36) ∧
      (∀ p ∈ c.request, Writable p.2 ∧ p.2 ≠ .LIST_NEIGHBOR_LQI) ∧
      ∀ (m a b : UInt8), m.toNat ∈ addressModes →
        Consumes none c.request ((if cluster = 0x36 then [m] else []) ++ [a, b] ++ body) := by
  have pick : ∀ n ps, (defZDO.any (fun c => c.id == n && c.type == .SREQ &&
      !(c.name == "mgmtPermitJoinReq") && c.request == ps)) = true →
      ∃ c ∈ defZDO, c.id = n ∧ c.type = .SREQ ∧ c.name ≠ "mgmtPermitJoinReq" ∧ c.request = ps := by
    intro n ps hn
    rw [List.any_eq_true] at hn
    obtain ⟨c, hc, h⟩ := hn
    simp only [Bool.and_eq_true, beq_iff_eq, Bool.not_eq_true', beq_eq_false_iff_ne] at h
    exact ⟨c, hc, h.1.1.1, h.1.1.2, h.1.2, h.2⟩
  rcases h with ⟨rfl, h⟩ | ⟨rfl, h⟩
  · obtain ⟨c, h1, h2, h3, h4, h5⟩ := pick 0 [("ieeeaddr", .IEEEADDR), ("reqtype", .UINT8),
      ("startindex", .UINT8)] (by decide +kernel)
    refine ⟨c, h1, h2, h3, iff_of_false h4 (by decide), by rw [h5]; decide, fun m a b _ => ?_⟩
    rw [h5]
    match body, h with
    | [c0, c1, c2, c3, c4, c5, c6, c7], _ =>
      exact consumes_ieee (bs := [a, b, c0, c1, c2, c3, c4, c5]) rfl (fun _ =>
        consumes_u8 (.inl (by decide +kernel)) (consumes_u8 (.inl (by decide +kernel))
          (consumes_nil _)))
  · obtain ⟨c, h1, h2, h3, h4, h5⟩ := pick 1 [("shortaddr", .UINT16), ("reqtype", .UINT8),
      ("startindex", .UINT8)] (by decide +kernel)
    refine ⟨c, h1, h2, h3, iff_of_false h4 (by decide), by rw [h5]; decide, fun m a b _ => ?_⟩
    rw [h5]
    match body, h with
    | [c0, c1], _ =>
      exact consumes_u16 (fun _ =>
        consumes_u8 (.inl (by decide +kernel)) (consumes_u8 (.inl (by decide +kernel))
          (consumes_nil _)))

/-- A body that ends before the last parameter of the command is read. -/
theorem zdo_short_of {cluster : Nat} {full body rest : List UInt8}
    (hb : ∃ c ∈ defZDO, c.id = cluster ∧ c.type = .SREQ ∧
      (c.name = "mgmtPermitJoinReq" ↔ cluster = 0x36) ∧
      (∀ p ∈ c.request, Writable p.2 ∧ p.2 ≠ .LIST_NEIGHBOR_LQI) ∧
      ∀ (m a b : UInt8), m.toNat ∈ addressModes →
        Consumes none c.request ((if cluster = 0x36 then [m] else []) ++ [a, b] ++ full))
    (hf : full = body ++ rest) (hr : rest ≠ [])
    (nwk profile srcEp dstEp sequence : Int) (tsn : UInt8) (radius : Int) (addrMode : Option Int)
    (hp : profile ≠ 260) :
    Obj.fromCluster nwk profile cluster srcEp dstEp sequence (tsn :: body) radius addrMode =
      .error .overflowError := by
  obtain ⟨c, hc, rfl, ht, hname, hw, hcons⟩ := hb
  have hin : InTable .ZDO c := ⟨_, rfl, hc⟩
  rw [fromCluster_zdo_eq hin _ _ _ _ _ _ _ _ hp]
  split
  · have hm : ∀ m : UInt8, m = (if nwk = 0xFFFC then 15 else 2) → m.toNat ∈ addressModes := by
      rintro m rfl; split <;> decide
    obtain ⟨vs, hv⟩ := hcons (if nwk = 0xFFFC then 15 else 2) (UInt8.ofNat (nwk.toNat % 256))
        (UInt8.ofNat (nwk.toNat / 256 % 256)) (hm _ rfl)
    have hz : zdoBytes c nwk (tsn :: body) = (if c.id = 0x36 then
        [if nwk = 0xFFFC then 15 else 2] else []) ++ [UInt8.ofNat (nwk.toNat % 256),
        UInt8.ofNat (nwk.toNat / 256 % 256)] ++ body := by
      unfold zdoBytes
      rw [le16_leBytes]
      simp only [hname]
      rfl
    rw [hz, readParameters_eq _ (table_params hin).1, hv.2 _ rest (by simp only [hf, List.append_assoc]) hr]
    rfl
  · rfl

/-- What a bind or unbind request to a group lacks. -/
theorem zdoGroup_cases {cluster : Nat} (h : cluster ∈ [0x21, 0x22]) {src : List UInt8}
    (hs : src.length = 8) (ep c d lo hi : UInt8) :
    ∃ cmd ∈ defZDO, cmd.id = cluster ∧ cmd.type = .SREQ ∧
      (cmd.name = "mgmtPermitJoinReq" ↔ cluster = 0x36) ∧
      (∀ p ∈ cmd.request, Writable p.2 ∧ p.2 ≠ .LIST_NEIGHBOR_LQI) ∧
      ∀ (m a b : UInt8), m.toNat ∈ addressModes →
        Consumes none cmd.request ((if cluster = 0x36 then [m] else []) ++ [a, b] ++
          (src ++ [ep, c, d, 1, lo, hi] ++ [0, 0, 0, 0, 0, 0, 0])) := by
  have hz := zdoBody_cases (.bind cluster h src (List.replicate 8 0) ep c d 0 hs rfl)
  obtain ⟨cmd, h1, h2, h3, h4, h5, _⟩ := hz
  have hreq : ∀ x ∈ defZDO, x.id ∈ [0x21, 0x22] → x.request = [("dstaddr", .UINT16),
      ("srcaddr", .IEEEADDR), ("srcendpoint", .UINT8), ("clusterid", .UINT16),
      ("dstaddrmode", .UINT8), ("dstaddress", .IEEEADDR), ("dstendpoint", .UINT8)] := by
    decide +kernel
  refine ⟨cmd, h1, h2, h3, h4, h5, fun m x y _ => ?_⟩
  rw [hreq cmd h1 (h2 ▸ h)]
  rw [if_neg (fun h' => by subst h'; exact absurd h (by decide))]
  have := consumes_u16 (prev := none) (name := "dstaddr") (a := x) (b := y) (fun _ =>
    consumes_ieee (name := "srcaddr") hs (fun _ =>
    consumes_u8 (name := "srcendpoint") (b := ep) (.inl (by decide +kernel))
    (consumes_u16 (name := "clusterid") (a := c) (b := d) (fun _ =>
    consumes_u8 (name := "dstaddrmode") (b := 1) (.inr (by decide))
    (consumes_ieee (name := "dstaddress") (bs := [lo, hi, 0, 0, 0, 0, 0, 0]) rfl (fun _ =>
    consumes_u8 (name := "dstendpoint") (b := 0) (.inl (by decide +kernel)) (consumes_nil _)))))))
  simpa using this

/-- The response waiter of these requests can be made. -/
theorem zdo_waiter {cluster : Nat} {body : List UInt8} (hb : ZdoBody cluster body)
    {nwk profile srcEp dstEp sequence radius : Int} {data : List UInt8} {addrMode : Option Int}
    (hp : profile ≠ 260) {o : Obj}
    (h : Obj.fromCluster nwk profile cluster srcEp dstEp sequence data radius addrMode = .ok o)
    (q : Option Int) (e : PyErr) : responseWaiter o q ≠ .error e := by
  obtain ⟨c, payload, hc, hid, hn, hr, rfl⟩ := fromCluster_zdo_ok hp h
  obtain ⟨c', hc', hid', _⟩ := zdoBody_cases hb
  have hcl : cluster ≠ 0 ∧ cluster ≠ 1 ∧ cluster ≠ 12 := by
    have : ∀ l : List Nat, cluster ∈ l → (∀ n ∈ l, n ≠ 0 ∧ n ≠ 1 ∧ n ≠ 12) →
        cluster ≠ 0 ∧ cluster ≠ 1 ∧ cluster ≠ 12 := fun l h1 h2 => h2 _ h1
    cases hb with
    | desc _ h => exact this _ h (by decide)
    | simple => decide
    | matchDesc => decide
    | bind _ h => exact this _ h (by decide)
    | nwkDisc => decide
    | table _ h => exact this _ h (by decide)
    | device _ h => exact this _ h (by decide)
    | permit => decide
  have hx : c.name ∉ undirected := by
    obtain ⟨cs, h1, h2⟩ := id hc
    cases h1
    have : ∀ c ∈ defZDO, c.name ∈ undirected → c.id = 0 ∨ c.id = 1 ∨ c.id = 12 := by decide +kernel
    intro hm
    have := this c h2 hm
    omega
  intro he
  unfold responseWaiter at he
  split at he
  · rename_i h1
    obtain ⟨cs, h3, h4⟩ := id hc
    cases h3
    have := zdo_noprefix_dec c h4
    rw [h1.2] at this; cases this
  · split at he
    · rename_i h1
      dsimp only at he
      rw [show definitionGet Subsystem.ZDO = .ok defZDO from rfl, ok_bind] at he
      split at he
      · rename_i ha
        have := zdo_dstaddr hc h1.1 h1.2 ha hx hn hr
        unfold dictGet at he
        rw [this] at he
        cases he
      · cases he
    · cases he

/-- Whatever is written for a ZDO request is made of the destination address and the body. -/
theorem zdo_prefix {nwk profile cluster srcEp dstEp sequence radius : Int}
    {data : List UInt8} {addrMode : Option Int} (hp : profile ≠ 260) {o : Obj}
    (h : Obj.fromCluster nwk profile cluster srcEp dstEp sequence data radius addrMode = .ok o)
    {f : Frame} (hf : o.toUnpiFrame = .ok f)
    (hw : ∀ p ∈ o.parameters, p.2 ≠ .LIST_NEIGHBOR_LQI) :
    f.subsystem = .ZDO ∧ (f.commandId : Int) = cluster ∧
      f.data <+: (if cluster = 0x36 then [if nwk = 0xFFFC then 15 else 2] else []) ++
        le16 nwk.toNat ++ data.drop 1 := by
  obtain ⟨c, payload, hc, rfl, hn, hr, rfl⟩ := fromCluster_zdo_ok hp h
  have hnd := (table_params hc).1
  have h36 : c.name = "mgmtPermitJoinReq" ↔ c.id = 0x36 := by
    obtain ⟨cs, h1, h2⟩ := hc
    cases h1
    have : ∀ c ∈ defZDO, c.name = "mgmtPermitJoinReq" ↔ c.id = 0x36 := by decide +kernel
    exact this c h2
  have h36' : ((c.id : Int) = 0x36) ↔ c.id = 0x36 := by omega
  have hz : zdoBytes c nwk data = (if (c.id : Int) = 0x36 then
      [if nwk = 0xFFFC then 15 else 2] else []) ++ le16 nwk.toNat ++ data.drop 1 := by
    unfold zdoBytes
    rw [le16_leBytes]
    simp only [h36, h36']
    rfl
  unfold Obj.toUnpiFrame at hf
  simp only [bind_ok_iff, pure_ok, Except.ok.injEq] at hf
  obtain ⟨bytes, hb, rfl⟩ := hf
  refine ⟨rfl, rfl, ?_⟩
  show bytes <+: _
  rw [← hz]
  rw [readParameters_eq _ hnd] at hr
  rcases hv : readVals none c.request (zdoBytes c nwk data) with e | ⟨vs, rest⟩
  · rw [hv] at hr; cases hr
  rw [hv] at hr
  cases hr
  rw [write_zip (readVals_length hv) hnd] at hb
  have hwr : ∀ p ∈ c.request, Writable p.2 ∧ p.2 ≠ .LIST_NEIGHBOR_LQI := by
    intro p hp
    refine ⟨Decidable.by_contra fun hx => ?_, hw p hp⟩
    obtain ⟨e, he⟩ := writeVals_unwritable c.request vs (readVals_length hv) ⟨p, hp, hx⟩
    rw [he] at hb; cases hb
  obtain ⟨bs, h1, h2⟩ := readVals_write c.request hwr _ _ _ _ hv
  rw [h1] at hb; cases hb
  exact ⟨rest, h2.symm⟩

/-- The permit-join object. -/
theorem permit_obj (time : Int) (h : 0 ≤ time ∧ time ≤ 254) :
    ∃ o, (Call.permit time).obj = .ok o ∧ o.toUnpiFrame = .ok (permitFrame time) ∧
      o.commandType = .SREQ := by
  have h1 : nextCmd defZDO (fun c => c.name == "mgmtPermitJoinReq") = .ok
      { name := "mgmtPermitJoinReq", id := 54, type := .SREQ,
        request := [("addrmode", .UINT8), ("dstaddr", .UINT16), ("duration", .UINT8), ("tcsignificance", .UINT8)],
        response := some [("status", .UINT8)] } := by decide +kernel
  refine ⟨⟨.SREQ, .ZDO, "mgmtPermitJoinReq", 54,
    [("addrmode", .int addrBroadcast), ("dstaddr", .int allRoutersAndCoordinator),
     ("duration", .int time), ("tcsignificance", .int 0)],
    [("addrmode", .UINT8), ("dstaddr", .UINT16), ("duration", .UINT8), ("tcsignificance", .UINT8)],
    none⟩, ?_, ?_, rfl⟩
  · unfold Call.obj Obj.fromCommand
    dsimp only
    rw [if_pos h, show definitionGet .ZDO = .ok defZDO from rfl]
    simp only [ok_bind, h1]
    rfl
  · have ht : writeInt time 1 = .ok [u8 time] := by
      rw [writeInt_ok_iff]
      exact ⟨⟨h.1, by have := h.2; simp; omega⟩, (leBytes_u8 time).symm⟩
    unfold Obj.toUnpiFrame
    have : writeParameters [("addrmode", .int addrBroadcast), ("dstaddr", .int allRoutersAndCoordinator),
        ("duration", .int time), ("tcsignificance", .int 0)]
        [("addrmode", .UINT8), ("dstaddr", .UINT16), ("duration", .UINT8), ("tcsignificance", .UINT8)] =
        .ok [15, 0xFC, 0xFF, u8 time, 0] := by
      show (do
        let a ← writeInt addrBroadcast 1
        let r ← (do
          let b ← writeInt allRoutersAndCoordinator 2
          let r ← (do
            let c ← writeInt time 1
            let r ← (do
              let d ← writeInt 0 1
              let r ← .ok []
              return d ++ r)
            return c ++ r)
          return b ++ r)
        return a ++ r) = _
      rw [ht]
      rfl
    dsimp only
    rw [this]
    rfl

end Zcc
