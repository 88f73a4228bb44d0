import Verif.Proofs.StartFail
import Verif.Proofs.StartAsks
import Verif.Proofs.Blame

/-!
# Why start-up may raise: executions
-/

namespace Zcc

open Spec

/-- A decoded message has the fields of its layout. -/
theorem layout_lookup {key : String} {k : Fld} (ps : List (String × Fld)) :
    ∀ {before : Nat} {data : List UInt8} {p : Payload}, readLayout before ps data = some p →
      ps.lookup key = some k →
      ∃ b d v n r, k.read b d = some (v, n, r) ∧ p.lookup key = some v := by
  induction ps with
  | nil => intro _ _ _ _ h; cases h
  | cons x ps ih =>
    obtain ⟨name, k'⟩ := x
    intro before data p hr hl
    rw [readLayout] at hr
    split at hr
    · cases hr
    · rename_i v n rest hv
      split at hr
      · cases hr
      · rename_i q hq
        cases hr
        rw [List.lookup_cons] at hl ⊢
        split at hl
        · cases hl
          exact ⟨before, data, v, n, rest, hv, rfl⟩
        · exact ih hq hl

theorem status_byte {rest : List (String × Fld)} {data : List UInt8} {p : Payload}
    (h : readLayout 0 (("status", .u8) :: rest) data = some p) :
    ∃ (a : UInt8) (r : List UInt8), data = a :: r ∧ p.lookup "status" = some (.int a.toNat) := by
  rw [readLayout] at h
  cases data with
  | nil => cases h
  | cons a r =>
    have : Fld.u8.read 0 (a :: r) = some (.int a.toNat, a.toNat, r) := rfl
    rw [this] at h
    dsimp only at h
    split at h
    · cases h
    · cases h
      exact ⟨a, r, rfl, rfl⟩

theorem lookup_none {key : String} (ps : List (String × Fld)) :
    ∀ {before : Nat} {data : List UInt8} {p : Payload}, readLayout before ps data = some p →
      (ps.all fun x => x.1 != key) = true → p.lookup key = none := by
  induction ps with
  | nil => intro _ _ _ h _; cases h; rfl
  | cons x ps ih =>
    obtain ⟨name, k'⟩ := x
    intro before data p hr hl
    rw [List.all_cons, Bool.and_eq_true] at hl
    rw [readLayout] at hr
    split at hr
    · cases hr
    · split at hr
      · cases hr
      · rename_i q hq
        cases hr
        have : (key == name) = false := by
          have := hl.1
          simp only [bne_iff_ne, ne_eq] at this
          simp only [beq_eq_false_iff_ne, ne_eq]
          exact fun h => this h.symm
        rw [List.lookup_cons, this]
        exact ih hq hl.2

theorem statusFirst_report {sub : Subsystem} {id : Nat} {command : String}
    (h : statusFirst sub id command = true) :
    ∃ rest, (.SRSP, sub, id, command, ("status", .u8) :: rest) ∈ reports := by
  unfold statusFirst at h
  rw [List.any_eq_true] at h
  obtain ⟨⟨t, s, n, name, fields⟩, hm, h⟩ := h
  simp only [Bool.and_eq_true, beq_iff_eq] at h
  obtain ⟨⟨⟨⟨rfl, rfl⟩, rfl⟩, rfl⟩, h⟩ := h
  cases fields with
  | nil => cases h
  | cons x rest => cases h; exact ⟨rest, hm⟩

theorem statusLess_report {sub : Subsystem} {id : Nat} {command : String}
    (h : statusLess sub id command = true) :
    ∃ fields, (.SRSP, sub, id, command, fields) ∈ reports ∧
      (fields.all fun x => x.1 != "status") = true := by
  unfold statusLess at h
  rw [List.any_eq_true] at h
  obtain ⟨⟨t, s, n, name, fields⟩, hm, h⟩ := h
  simp only [Bool.and_eq_true, beq_iff_eq] at h
  obtain ⟨⟨⟨⟨rfl, rfl⟩, rfl⟩, rfl⟩, h⟩ := h
  exact ⟨fields, hm, h⟩

/-- The fields that start-up looks into exist. -/
theorem reads_report {sub : Subsystem} {command key : String} (h : (sub, command, key) ∈ readsOf) :
    command ≠ "resetReq" ∧ ∃ id fields k, (.SRSP, sub, id, command, fields) ∈ reports ∧
      fields.lookup key = some k := by
  have hall : (readsOf.all fun x => x.2.1 != "resetReq" && reports.any fun r => r.1 == .SRSP && r.2.1 == x.1 &&
      r.2.2.2.1 == x.2.1 && (r.2.2.2.2.lookup x.2.2).isSome) = true := by decide +kernel
  have := List.all_eq_true.mp hall _ h
  rw [Bool.and_eq_true, List.any_eq_true] at this
  obtain ⟨h0, ⟨t, s, n, name, fields⟩, hm, h1⟩ := this
  simp only [Bool.and_eq_true, beq_iff_eq] at h1
  obtain ⟨⟨⟨rfl, rfl⟩, rfl⟩, h2⟩ := h1
  obtain ⟨k, hk⟩ := Option.isSome_iff_exists.mp h2
  refine ⟨?_, n, fields, k, hm, hk⟩
  intro he
  subst he
  simp at h0

/-- The object of a request of start-up can be sent. -/
theorem asked_sendable {sub : Subsystem} {command : String} {payload : Payload}
    {expected : Option (List Int)} {ask : Frame}
    (hf : (Op.request sub command payload expected).frame = some ask)
    (ha : Asked command expected ask) :
    ∃ o, Obj.fromCommand sub command payload = .ok o ∧ o.toUnpiFrame = .ok ask ∧ Sendable o ∧
      o.commandType = ask.commandType ∧ ask.subsystem = sub ∧ ∀ b, WrittenAs o b → b = wire ask := by
  unfold Op.frame at hf
  dsimp only at hf
  rcases ho : Obj.fromCommand sub command payload with e | o
  · rw [ho] at hf; cases hf
  rw [ho] at hf
  have hf : o.toUnpiFrame.toOption = some ask := hf
  rcases hu : o.toUnpiFrame with e | f
  · rw [hu] at hf; cases hf
  rw [hu] at hf
  cases hf
  have hty : o.commandType = ask.commandType ∧ ask.subsystem = o.subsystem := by
    unfold Obj.toUnpiFrame at hu
    rcases hx : writeParameters o.payload o.parameters with e | data
    · rw [hx] at hu; cases hu
    · rw [hx] at hu; cases hu; exact ⟨rfl, rfl⟩
  have hsend : Gateway.send ask = if Fits ask then .ok (wire ask) else .error .valueError := by
    rw [Gateway.send, toBuffer_eq]
  have hw : ∀ b, WrittenAs o b → b = wire ask := by
    rintro b ⟨f, h1, h2⟩
    rw [hu] at h1
    cases h1
    rw [hsend] at h2
    split at h2
    · cases h2; rfl
    · cases h2
  refine ⟨o, rfl, hu, ⟨?_, wire ask, ask, hu, ?_⟩, hty.1, ?_, hw⟩
  · rw [hty.1]
    rcases ha.2 with ⟨h, -⟩ | ⟨h, -⟩
    · exact .inr (by rw [h]; rfl)
    · exact .inl h
  · rw [hsend, if_pos ha.1]
  · rw [hty.2]; exact (fromCommand_fields ho).1

/-- The time limit of a request of start-up, and what it waits for. -/
theorem asked_ends {sub : Subsystem} {command : String} {payload : Payload}
    {expected : Option (List Int)} {ask : Frame}
    (hf : (Op.request sub command payload expected).frame = some ask)
    (ha : Asked command expected ask) {o : Obj} (ho : Obj.fromCommand sub command payload = .ok o) :
    limit o = answerLimit ask ∧
    ∀ f, Concludes ask f → ∃ rsp, Obj.fromUnpiFrame f = .ok rsp ∧ AwaitedBy o rsp := by
  obtain ⟨o', ho', -, -, hty, hsub, -⟩ := asked_sendable hf ha
  rw [ho] at ho'
  cases ho'
  obtain ⟨hos, hoc⟩ := fromCommand_fields ho
  have hdec : ∀ {f : Frame}, WellLaid f → ∃ r ∈ reports, r.1 = f.commandType ∧ r.2.1 = f.subsystem ∧
      r.2.2.1 = f.commandId ∧ ∃ rsp, Obj.fromUnpiFrame f = .ok rsp ∧ rsp.commandType = r.1 ∧
        rsp.subsystem = r.2.1 ∧ rsp.command = r.2.2.2.1 := by
    rintro f ⟨⟨t, s, n, name, fields⟩, hm, h1, h2, h3, h4⟩
    refine ⟨_, hm, h1, h2, h3, ?_⟩
    have := report_decoded hm h1.symm h2.symm h3.symm
    obtain ⟨q, hq⟩ := Option.isSome_iff_exists.mp h4
    dsimp only at hq
    rw [hq] at this
    exact ⟨_, this, rfl, rfl, rfl⟩
  rcases ha.2 with ⟨rfl, hc⟩ | ⟨hst, hrow⟩
  · have hs : o.subsystem = .SYS := by rw [hos, ← hsub]; rfl
    have ht : o.commandType = .AREQ := by rw [hty]; rfl
    refine ⟨?_, ?_⟩
    · unfold limit
      rw [ht, hs, hoc, hc]
      decide
    · rintro f ⟨hl, h⟩
      rw [if_pos (by rfl)] at h
      obtain ⟨r, hm, h1, h2, h3, rsp, hd, k1, k2, k3⟩ := hdec hl
      refine ⟨rsp, hd, .inr ⟨ht, by rw [k1, h1, h.1], by rw [k2, h2, h.2.1], ?_⟩⟩
      rw [k3]
      have hall : (reports.all fun r => r.1 != .AREQ || r.2.1 != .SYS || r.2.2.1 != 0x80 ||
        r.2.2.2.1 == "resetInd") = true := by decide +kernel
      have := List.all_eq_true.mp hall _ hm
      rw [h1, h2, h3, h.1, h.2.1, h.2.2] at this
      simpa using this
  · have ht : o.commandType = .SREQ := by rw [hty, hst]
    obtain ⟨fields, hrep⟩ : ∃ fields, (.SRSP, ask.subsystem, ask.commandId, command, fields) ∈ reports := by
      rcases hrow with h | ⟨-, -, h, -⟩
      · obtain ⟨fields, h, -⟩ := statusLess_report h
        exact ⟨_, h⟩
      · obtain ⟨rest, h⟩ := statusFirst_report h
        exact ⟨_, h⟩
    refine ⟨?_, ?_⟩
    · have hall : (reports.all fun r => r.1 != .SRSP ||
        decide (r.2.2.2.1 = "bdbStartCommissioning" ∨ r.2.2.2.1 = "startupFromApp" ↔
          (r.2.1, r.2.2.1) = (Subsystem.APP_CNF, 0x05) ∨ (r.2.1, r.2.2.1) = (Subsystem.ZDO, 0x40))) =
          true := by
        decide +kernel
      have := List.all_eq_true.mp hall _ hrep
      rw [Bool.or_eq_true, decide_eq_true_eq] at this
      have := this.resolve_left (fun h => by cases h)
      dsimp only at this
      unfold limit answerLimit
      rw [ht, hoc, hst, if_pos rfl, if_neg (c := CommandType.SREQ = .AREQ) (fun h => by cases h)]
      simp only [this]
    · rintro f ⟨hl, h⟩
      rw [if_neg (by rw [hst]; intro h; cases h)] at h
      obtain ⟨r, hm, h1, h2, h3, rsp, hd, k1, k2, k3⟩ := hdec hl
      refine ⟨rsp, hd, .inl ⟨ht, by rw [k1, h1, h.1], by rw [k2, h2, h.2.1, hsub, hos], ?_⟩⟩
      have hd' := report_decoded hrep h.1 h.2.1 h.2.2
      rw [hd] at hd'
      split at hd'
      · cases hd'
      · cases hd'
        exact hoc.symm

/-- A failed request of start-up. -/
theorem blame_request {α : Type} {p : Prog α} (hm : Modest p) {evs : List ClientEvent} (hr : Polite evs)
    {h1 h2 : List Act} {sub : Subsystem} {command : String} {payload : Payload}
    {expected : Option (List Int)} {e : PyErr}
    (hh : (Client.run p evs).hist = h1 ++ ⟨.request sub command payload expected, .error e⟩ :: h2)
    (ha : Asks (.request sub command payload expected)) :
    Blame p evs e ∧ ∀ z, e = .commandError z → command ≠ "ping" := by
  obtain ⟨ask, hf, hask⟩ := ha
  obtain ⟨o, ho, hu, hs, hty, hsub, hw⟩ := asked_sendable hf hask
  obtain ⟨hc, hnk, hcmd⟩ := request_cause hm hr hh ho hs
  have hcmd' : ∀ z, e = .commandError z → command ≠ "ping" ∧
      ∃ b : UInt8, z = b.toNat ∧ Refused p evs b := by
    intro z hz
    obtain ⟨a, b, t, bytes, f, rsp, he, hp, hwr, hsl, hd, hst, ⟨hr1, hr2, hr3⟩, hbs⟩ := hcmd z hz
    have hb := hw bytes hwr
    subst hb
    obtain ⟨hos, hoc⟩ := fromCommand_fields ho
    rw [hos] at hr2
    rw [hoc] at hr3
    rcases hask.2 with ⟨h, -⟩ | ⟨-, h | ⟨hnp, hnv, h, hex⟩⟩
    · rw [hty, h] at hst; cases hst
    · exfalso
      obtain ⟨fields, hm, hall⟩ := statusLess_report h
      obtain ⟨-, -, -, hl⟩ := report_received hm hd hr1 (hr2.trans hsub.symm) hr3
      have hnone := lookup_none fields hl hall
      unfold badStatus at hbs
      rw [hnone] at hbs
      cases hbs
    · obtain ⟨rest, hm⟩ := statusFirst_report h
      obtain ⟨k1, k2, k3, hl⟩ := report_received hm hd hr1 (hr2.trans hsub.symm) hr3
      obtain ⟨b0, r, hdat, hlook⟩ := status_byte hl
      obtain ⟨h3, h4⟩ := badStatus_some hbs (fun v hv => by
        rw [hlook] at hv; cases hv; exact ⟨_, rfl⟩)
      rw [hlook] at h3
      cases h3
      refine ⟨?_, b0, rfl, a, b, t, ask, f, rsp, r, he, hp, hsl, k1, k2, k3, hnp, hnv, hdat, ?_⟩
      · rintro rfl
        have hp : (reports.all fun r => r.2.2.2.1 != "ping" || r.2.2.2.2.head? != some ("status", .u8)) =
          true := by decide +kernel
        have := List.all_eq_true.mp hp _ hm
        simp at this
      · intro hmem
        refine h4 ?_
        rw [hex]
        exact List.mem_map_of_mem (f := fun z : UInt8 => (z.toNat : Int)) hmem
  refine ⟨?_, ?_⟩
  · cases hc with
    | closed h => exact .closed h
    | cancelled h => exact .cancelled h
    | unanswered h =>
      obtain ⟨hlim, hends⟩ := asked_ends hf hask ho
      obtain ⟨a, b, t, x, time, bytes, he, hp, hwr, hsl, hn, hno⟩ := h
      have hb := hw bytes hwr
      subst hb
      rw [hlim] at hn hno
      exact .unanswered ⟨a, b, t, x, time, he, hp, hsl, hn, fun a' f b' ha' hx ht hen =>
        let ⟨rsp, hd, haw⟩ := hends f hen
        hno a' f b' rsp ha' hx ht hd haw⟩
    | refused =>
      obtain ⟨-, b, rfl, h⟩ := hcmd' _ rfl
      exact .refused h
    | lost => exact absurd rfl hnk
  · exact fun z hz => (hcmd' z hz).1

/-- A response of which start-up needs a field is there and has it. -/
theorem no_lacks {α : Type} {p : Prog α} {evs : List ClientEvent}
    (hu : Unshared evs (Client.run p evs).hist) {h1 h2 : List Act} {sub : Subsystem} {command : String}
    {payload : Payload} {expected : Option (List Int)} {r : Option Obj} {key : String}
    (hh : (Client.run p evs).hist = h1 ++ ⟨.request sub command payload expected, .ok r⟩ :: h2)
    (ha : Asks (.request sub command payload expected)) (hk : (sub, command, key) ∈ readsOf) :
    ¬ Lacks r key := by
  intro hl
  obtain ⟨hnr, id, fields, k, hm, hfk⟩ := reads_report hk
  obtain ⟨ask, hf, hask⟩ := ha
  have hsreq : ask.commandType = .SREQ := by
    rcases hask.2 with ⟨-, h⟩ | ⟨h, -⟩
    · exact absurd h hnr
    · exact h
  obtain ⟨past, ci⟩ := client_inv p evs
  have ht := ci.trace hu
  obtain ⟨rest, hlog⟩ := ci.log
  cases r with
  | none =>
    obtain ⟨p1, seg, r1, hp, ht1, hlg⟩ := ht.at hh
    obtain ⟨q, t, bs, hq, hw, hty, -, -⟩ := hlg
    obtain ⟨o, ho, -, -, hty', -, -⟩ := asked_sendable hf hask
    rw [hq] at ho
    cases ho
    rw [hty', hsreq] at hty
    cases hty
  | some n =>
    obtain ⟨p1, seg, r1, t, f, -, -, -, hd, hn1, hn2, hn3, -⟩ := exchange_at (fun f o h =>
      ci.api.resp.recv f o (by rw [← hlog]; exact List.mem_append_left _ h)) ht hh hf hsreq
    obtain ⟨-, -, -, hlay⟩ := report_received hm hd hn1 hn2 hn3
    obtain ⟨b, d, v, m, x, -, hv⟩ := layout_lookup fields hlay hfk
    rw [hl n rfl] at hv
    cases hv

/-- The list of endpoints is a list. -/
theorem endpoints_list {α : Type} {p : Prog α} {evs : List ClientEvent}
    (hu : Unshared evs (Client.run p evs).hist) {before between after : List Act} {w : Nat} {n : Obj}
    (hh : (Client.run p evs).hist = before ++ ⟨.waitFor endpointsMatcher 10000, .ok w⟩ :: between ++
      ⟨.wait w, .ok n⟩ :: after) : ∃ l, n.payload.lookup "activeeplist" = some (.ints l) := by
  obtain ⟨past, ci⟩ := client_inv p evs
  have ht := ci.trace hu
  obtain ⟨rest, hlog⟩ := ci.log
  have hnd : (past.filterMap Entry.regId).Nodup := by
    have := regs_nodup ci.api
    rw [← hlog, List.filterMap_append] at this
    exact (List.nodup_append.mp this).1
  obtain ⟨p1, later, r1, f, hp, -, -, ⟨a1, a2, a3, -⟩, hf⟩ := ht.wait_after hnd hh
  have hd := ci.api.resp.recv f n (by
    rw [← hlog, hp]
    exact List.mem_append_left _ (List.mem_append_left _ (List.mem_append_right _ hf)))
  obtain ⟨-, -, -, hlay⟩ := report_received (t := .AREQ) (s := .ZDO) (n := 0x85) (name := "activeEpRsp")
    (fields := [("srcaddr", .u16), ("status", .u8), ("nwkaddr", .u16), ("activeepcount", .u8),
      ("activeeplist", .octets)]) (by decide +kernel) hd a1.symm a2.symm a3.symm
  obtain ⟨b, d, v, m, x, hv, hlk⟩ := layout_lookup (key := "activeeplist") (k := .octets) _ hlay rfl
  rw [hlk]
  have hv : (if b ≤ d.length then
    some (Val.ints ((d.take b).map fun b => (b.toNat : Int)), 0, d.drop b) else none) = some (v, m, x) := hv
  split at hv
  · cases hv; exact ⟨_, rfl⟩
  · cases hv

/-- The kind of the radio. -/
theorem version_product {α : Type} {p : Prog α} {evs : List ClientEvent}
    (hu : Unshared evs (Client.run p evs).hist) {h1 h2 : List Act} {v : Obj} {q : Val} {e : PyErr}
    (hh : (Client.run p evs).hist = h1 ++ ⟨.request .SYS "version" [] none, .ok (some v)⟩ :: h2)
    (hv : v.payload.lookup "product" = some q) (hq : znpVersion q = .error e) : Blame p evs e := by
  obtain ⟨past, ci⟩ := client_inv p evs
  have ht := ci.trace hu
  obtain ⟨rest, hlog⟩ := ci.log
  obtain ⟨p1, seg, r1, t, f, hL, -, hsl, hd, hn1, hn2, hn3, -⟩ := exchange_at (ask := versionReq)
    (fun f o h => ci.api.resp.recv f o (by rw [← hlog]; exact List.mem_append_left _ h)) ht hh
    (by decide +kernel) rfl
  obtain ⟨k1, k2, k3, hlay⟩ := report_received (t := .SRSP) (s := .SYS) (n := 0x02) (name := "version")
    (fields := [("transportrev", .u8), ("product", .u8), ("majorrel", .u8), ("minorrel", .u8),
      ("maintrel", .u8), ("revision", .u32)]) (by decide +kernel) hd hn1 hn2 hn3
  obtain ⟨b, d, v', m, x, hv', hlk⟩ := layout_lookup (key := "product") (k := .u8) _ hlay rfl
  rw [hv] at hlk
  cases hlk
  obtain ⟨n, rfl⟩ : ∃ n : Int, q = .int n := by
    cases d with
    | nil => cases hv'
    | cons a r => cases hv'; exact ⟨_, rfl⟩
  obtain ⟨tr, c, y, hdat, -, rfl⟩ := version_bytes hlay hv
  have hq : (if (c.toNat : Int) = zStack12 ∨ (c.toNat : Int) = zStack3x0 ∨ (c.toNat : Int) = zStack30x
    then Except.ok (c.toNat : Int) else .error .valueError) = .error e := hq
  split at hq
  · cases hq
  · rename_i hno
    cases hq
    refine .product ⟨t, v, ?_, k1, k2, k3⟩ hdat ?_
    · refine hsl.trans ?_
      rw [← hlog, hL, List.append_assoc, List.append_assoc]
      exact (List.sublist_append_left _ _).trans (List.sublist_append_right _ _)
    · unfold zStack12 zStack3x0 zStack30x at hno
      rw [UInt8.lt_iff_toNat_lt]
      show 2 < c.toNat
      omega

/-- The last frame of a history that ends with a wait. -/
theorem frames_last {before between : List Act} {m : Matcher} {timeout w : Nat} {e : PyErr} {f : Frame}
    (hf : frames between = [f]) :
    (frames (before ++ ⟨.waitFor m timeout, .ok w⟩ :: between ++ [⟨.wait w, .error e⟩])).getLast? =
      some f := by
  have h1 : frames (⟨.waitFor m timeout, .ok w⟩ :: between : List Act) = [f] := hf
  have h2 : frames ([⟨.wait w, .error e⟩] : List Act) = [] := rfl
  rw [frames_append, frames_append, h1, h2]
  simp

/-- A coroutine that raises only as start-up does, and does only what start-up does. -/
theorem blame_of {α : Type} {p : Prog α} (hb : BlamesIn [] p (fun _ => False)) (ha : Only Asks p)
    {evs : List ClientEvent} (hu : Unshared evs (Client.run p evs).hist) (hreg : Polite evs)
    {e : PyErr} (hr : (Client.run p evs).prog = .raise e) : Blame p evs e := by
  have hm : Modest p := only_mono (fun op h m timeout ho => by subst ho; exact h) ha
  obtain ⟨past, ci⟩ := client_inv p evs
  have hraise : Raises p (Client.run p evs).hist e := by
    have := ci.fed
    rw [hr] at this
    exact this
  have hasks : ∀ a ∈ (Client.run p evs).hist, Asks a.op := ha _ (hist_runs p evs)
  rcases hb _ _ hraise with hw | hw
  · rw [List.nil_append] at hw
    generalize hh : (Client.run p evs).hist = h at *
    cases hw with
    | @request h sub command payload expected e =>
      exact (blame_request hm hreg (h2 := []) hh (hasks _ (List.mem_append_right _ (.head _)))).1
    | connect => exact .connect (by rw [hh]; simp)
    | @safe h op e hs =>
      exfalso
      obtain ⟨x, ev, y, k, s, -, -, -, he⟩ := act_moment p evs (h2 := []) hh
      generalize hact : (⟨op, .error e⟩ : Act) = a at he
      cases he with
      | request => injection hact with h1 h2; subst h1; cases hs
      | build => injection hact with h1 h2; subst h1; cases hs
      | spawn => injection hact with h1 h2; subst h1; cases h2
      | waitFor => injection hact with h1 h2; subst h1; cases h2
      | result => injection hact with h1 h2; subst h1; cases hs
      | cancelled => injection hact with h1 h2; subst h1; cases hs
      | late => injection hact with h1 h2; subst h1; cases hs
      | interrupted => injection hact with h1 h2; subst h1; cases hs
      | connect => injection hact with h1 h2; subst h1; cases hs
      | semaphore => injection hact with h1 h2; subst h1; cases h2
      | coordinator => injection hact with h1 h2; subst h1; cases h2
    | ping =>
      exact absurd rfl ((blame_request hm hreg (h2 := []) hh (hasks _ (List.mem_append_right _ (.head _)))).2 _ rfl)
    | @lacks h sub command payload expected r key e hk hl =>
      exact absurd hl (no_lacks (hh ▸ hu) (h2 := []) hh (hasks ⟨.request sub command payload expected, .ok r⟩ (by simp)) hk)
    | @wait h before between m timeout w e hl hh' hno =>
      subst hh'
      have hc := wait_cause hm hreg (after := []) hh (fun x => hno w (.error x))
      rcases hl with ⟨rfl, rfl, hf⟩ | ⟨rfl, rfl, hf⟩
      · cases hc with
        | cancelled h => exact .cancelled h
        | inVain h => exact .notStarted h (hh ▸ frames_last hf)
      · cases hc with
        | cancelled h => exact .cancelled h
        | inVain h => exact .noEndpoints h (hh ▸ frames_last hf)
    | @stopped h before between w hh' hno =>
      subst hh'
      have hc := wait_cause hm hreg (after := []) hh (fun x => hno w (.error x))
      cases hc with
      | cancelled h => exact .cancelled h
    | @started h before between w e hh' hno hf hne =>
      subst hh'
      have hc := wait_cause hm hreg (after := []) hh (fun x => hno w (.error x))
      cases hc with
      | cancelled h => exact absurd rfl hne
      | inVain h => exact .notCommissioned h (hh ▸ frames_last hf)
    | @list h before between w n e hh' hl =>
      obtain ⟨l, h⟩ := endpoints_list (hh ▸ hu) (after := []) (hh.trans hh')
      exact absurd h (hl l)
    | product hv hp => exact version_product (hh ▸ hu) hh hv hp
  · exact hw.elim

end Zcc
