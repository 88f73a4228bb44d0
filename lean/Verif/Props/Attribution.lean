import Verif.Proofs.Attribution
import Verif.Props.App

/-!
# C91: messages are attributed to the device that has the address
-/

namespace Zcc

open Spec

/-- **C91.** Over any execution in which zigpy does not change its table itself, the table has exactly
the devices that were in it before or announced themselves, each under the address it announced last;
and every message that zigpy is handed comes from such a device, under the address it had at that
time. -/
theorem c91_table (d : Driver) (hd : DistinctIeee d.app.devices) (evs : List DriverEvent)
    (hk : TableKept evs) :
    ∃ new, (d.run evs).effects = d.effects ++ new ∧ DistinctIeee (d.run evs).app.devices ∧
      (∀ x, x ∈ (d.run evs).app.devices ↔ lastAddress d.app.devices new x.ieee = some x.nwk) ∧
      ∀ pre dev profile cluster srcEp dstEp data post,
        new = pre ++ .message dev profile cluster srcEp dstEp data :: post →
        lastAddress d.app.devices pre dev.ieee = some dev.nwk := by
  obtain ⟨new, h1, h2⟩ := attributed_run evs (es := d.effects) (new := []) (by simp)
    (attributed_init hd) hk
  exact ⟨new, h1, h2.distinct, h2.table, h2.msgs⟩

/-- **C91 (partial).** After such an execution a message from an address is handed over as one of the
device that has it, if no other device announced the address without announcing another one since.
Missing: an address that two devices have announced; see `c91_refuted`. -/
theorem c91_holder_partial (d : Driver) (hd : DistinctIeee d.app.devices) (evs : List DriverEvent)
    (hk : TableKept evs) (new : List Effect) (hn : (d.run evs).effects = d.effects ++ new)
    (m : AppMessage) (hlen : m.data.length < 256) (trailing : List UInt8) (b : List UInt8)
    (hb : ∀ c, lastAddress d.app.devices new c = some (m.src.toNat : Int) ↔ c = b)
    (es : List Event) (hreg : StartupWaiters es) :
    (receive (Api.init.run es) (d.run evs).app (m.frame trailing)).2 =
      ⟨(d.run evs).app, handOver ⟨b, m.src.toNat⟩ m.lqi.toNat m.cluster.toNat m.srcEp.toNat
        m.dstEp.toNat m.data, none⟩ := by
  have h := attributed hd hk hn
  refine c32_known_partial es hreg _ m hlen trailing _ ?_
  obtain ⟨pre, post, hs⟩ := List.append_of_mem ((h.table ⟨b, m.src.toNat⟩).mpr ((hb b).mpr rfl))
  refine ⟨pre, post, hs, rfl, fun x hx hxn => ?_⟩
  have hm : x ∈ (d.run evs).app.devices := by rw [hs]; exact List.mem_append_left _ hx
  have hi : x.ieee = b := (hb _).mp (by rw [(h.table x).mp hm, hxn])
  have hdist := h.distinct
  rw [hs, DistinctIeee, List.map_append, List.map_cons, List.nodup_append] at hdist
  exact hdist.2.2 _ (List.mem_map_of_mem (f := (·.ieee)) hx) _ (.head _) hi

/-- C91: after such an execution a message from an address that no device has announced last is
dropped. -/
theorem c91_nobody (d : Driver) (hd : DistinctIeee d.app.devices) (evs : List DriverEvent)
    (hk : TableKept evs) (new : List Effect) (hn : (d.run evs).effects = d.effects ++ new)
    (m : AppMessage) (hlen : m.data.length < 256) (trailing : List UInt8)
    (hb : ∀ c, lastAddress d.app.devices new c ≠ some (m.src.toNat : Int))
    (es : List Event) (hreg : StartupWaiters es) :
    (receive (Api.init.run es) (d.run evs).app (m.frame trailing)).2 = ⟨(d.run evs).app, [], none⟩ := by
  have h := attributed hd hk hn
  refine c32_unknown es hreg _ m hlen trailing fun x hx hxn => ?_
  exact hb x.ieee (by rw [(h.table x).mp hx, hxn])

/-- One device, [1, …], announces itself under the address 0x1111 and afterwards under 0x1234, with
another, [2, …], in between. -/
def moving : List DriverEvent :=
  [.sys (.newSemaphore 0),
   .bytes 0 (wire (announcement 0x1111 0x1111 [1, 1, 1, 1, 1, 1, 1, 1] 0x8E [])),
   .bytes 0 (wire (announcement 0x2222 0x2222 [2, 2, 2, 2, 2, 2, 2, 2] 0x8E [])),
   .bytes 0 (wire (announcement 0x1234 0x1234 [1, 1, 1, 1, 1, 1, 1, 1] 0x8E []))]

/-- What zigpy is told about it. -/
def movingTold : List Effect :=
  .join 0x1111 [1, 1, 1, 1, 1, 1, 1, 1] 0 ::
    (handOver ⟨[1, 1, 1, 1, 1, 1, 1, 1], 0x1111⟩ 0 0x13 0 0 [0, 0x11, 0x11, 1, 1, 1, 1, 1, 1, 1, 1, 0x8E] ++
  .join 0x2222 [2, 2, 2, 2, 2, 2, 2, 2] 0 ::
    (handOver ⟨[2, 2, 2, 2, 2, 2, 2, 2], 0x2222⟩ 0 0x13 0 0 [0, 0x22, 0x22, 2, 2, 2, 2, 2, 2, 2, 2, 0x8E] ++
  .join 0x1234 [1, 1, 1, 1, 1, 1, 1, 1] 0 ::
    handOver ⟨[1, 1, 1, 1, 1, 1, 1, 1], 0x1234⟩ 0 0x13 0 0 [0, 0x34, 0x12, 1, 1, 1, 1, 1, 1, 1, 1, 0x8E]))

theorem moving_told : (Driver.init.run moving).effects = movingTold := by decide +kernel

theorem moving_kept : TableKept moving := by
  intro ds h
  simp [moving] at h

/-- Whether and under which address the two are known. -/
theorem moving_last (c : List UInt8) : lastAddress [] movingTold c =
    if c = [1, 1, 1, 1, 1, 1, 1, 1] then some 0x1234 else if c = [2, 2, 2, 2, 2, 2, 2, 2] then some 0x2222
    else none := by
  simp only [lastAddress, movingTold, handOver, List.cons_append, List.nil_append, List.foldl_cons,
    List.foldl_nil, addressAfter, addressIn, List.find?_nil, Option.map_none]
  by_cases h1 : c = [1, 1, 1, 1, 1, 1, 1, 1]
  · subst h1; rfl
  · rw [if_neg (Ne.symm h1), if_neg h1, if_neg (Ne.symm h1)]
    by_cases h2 : c = [2, 2, 2, 2, 2, 2, 2, 2]
    · subst h2; rfl
    · rw [if_neg (Ne.symm h2), if_neg h2]

/-- The message from 0x1234 is one of the first device. -/
example : (receive Api.init (Driver.init.run moving).app (exMessage.frame [])).2.effects =
    handOver ⟨[1, 1, 1, 1, 1, 1, 1, 1], 0x1234⟩ 87 6 1 1 exMessage.data := by
  have h := c91_holder_partial Driver.init (by decide) moving moving_kept movingTold moving_told exMessage
    (by decide) [] [1, 1, 1, 1, 1, 1, 1, 1] (fun c => by
      show lastAddress [] movingTold c = some 0x1234 ↔ _
      rw [moving_last]
      split
      · simp_all
      · split <;> simp_all) [] (fun _ _ _ h => by cases h)
  exact congrArg Handled.effects h

/-- Nobody has the address 0x1111 any more. -/
example : (receive Api.init (Driver.init.run moving).app ({ exMessage with src := 0x1111 }.frame [])).2.effects
    = [] := by
  have h := c91_nobody Driver.init (by decide) moving moving_kept movingTold moving_told
    { exMessage with src := 0x1111 } (by decide) [] (fun c => by
      show lastAddress [] movingTold c ≠ some 0x1111
      rw [moving_last]
      split
      · simp
      · split <;> simp) [] (fun _ _ _ h => by cases h)
  exact congrArg Handled.effects h

/-- The table after it. -/
example : (Driver.init.run moving).app.devices =
    [⟨[1, 1, 1, 1, 1, 1, 1, 1], 0x1234⟩, ⟨[2, 2, 2, 2, 2, 2, 2, 2], 0x2222⟩] := by decide +kernel

example : ∃ new, (Driver.init.run moving).effects = new ∧
    (⟨[1, 1, 1, 1, 1, 1, 1, 1], 0x1234⟩ : Device) ∈ (Driver.init.run moving).app.devices := by
  obtain ⟨new, h1, -, h3, -⟩ := c91_table Driver.init (by decide) moving moving_kept
  have h1' : movingTold = new := moving_told ▸ h1
  exact ⟨new, h1, (h3 _).mpr (by
    show lastAddress [] new _ = _
    rw [← h1', moving_last]; rfl)⟩

/-- The radio's report that a device left the network (ZDO_LEAVE_IND): source address, IEEE address,
request, remove, rejoin. -/
def leaving (src : UInt16) (ieee : List UInt8) : Frame :=
  .of .AREQ .ZDO 0xC9 (le16 src.toNat ++ ieee ++ [0, 0, 0])

/-- A device leaves the network; another one joins and is given its address. -/
def reused : List DriverEvent :=
  [.sys (.newSemaphore 0),
   .bytes 0 (wire (announcement 0x1234 0x1234 [1, 1, 1, 1, 1, 1, 1, 1] 0x8E [])),
   .bytes 0 (wire (leaving 0x1234 [1, 1, 1, 1, 1, 1, 1, 1])),
   .bytes 0 (wire (announcement 0x1234 0x1234 [2, 2, 2, 2, 2, 2, 2, 2] 0x8E []))]

theorem reused_kept : TableKept reused := by
  intro ds h
  simp [reused] at h

/-- **C91 is false in general**: the radio's report that a device left is ignored, so that the device
stays in the table under its address; when another device joins and announces the same address, its
messages are handed over as those of the device that left. -/
theorem c91_refuted :
    ¬ ∀ (evs : List DriverEvent) (_ : TableKept evs) (m : AppMessage) (b : List UInt8),
      LastAnnounced (Driver.init.run evs).effects m.src.toNat b →
      (receive Api.init (Driver.init.run evs).app (m.frame [])).2.effects =
        handOver ⟨b, m.src.toNat⟩ m.lqi.toNat m.cluster.toNat m.srcEp.toNat m.dstEp.toNat m.data := by
  intro h
  have hl : LastAnnounced (Driver.init.run reused).effects exMessage.src.toNat [2, 2, 2, 2, 2, 2, 2, 2] := by
    refine ⟨0, (Driver.init.run reused).effects.take 3, (Driver.init.run reused).effects.drop 4,
      by decide +kernel, ?_⟩
    have hd : (Driver.init.run reused).effects.drop 4 =
      handOver ⟨[2, 2, 2, 2, 2, 2, 2, 2], 0x1234⟩ 0 0x13 0 0
        [0, 0x34, 0x12, 2, 2, 2, 2, 2, 2, 2, 2, 0x8E] := by decide +kernel
    rw [hd]
    intro m c q hm
    simp [handOver] at hm
  have h' := h reused reused_kept exMessage _ hl
  revert h'
  decide +kernel

/-- It is handed over as one of the device that left. -/
example : (receive Api.init (Driver.init.run reused).app (exMessage.frame [])).2.effects =
    handOver ⟨[1, 1, 1, 1, 1, 1, 1, 1], 0x1234⟩ 87 6 1 1 exMessage.data := by decide +kernel

end Zcc
