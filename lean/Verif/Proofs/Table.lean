import Verif.Proofs.Codec

/-! Facts about the command table, each checked by the kernel over the whole table, and the
lookups they justify. -/

namespace Zcc
open Spec

/-- Every subsystem. -/
def allSubsystems : List Subsystem :=
  [.RESERVED, .SYS, .MAC, .NWK, .AF, .ZDO, .SAPI, .UTIL, .DEBUG, .APP, .APP_CNF, .GREENPOWER]

theorem mem_allSubsystems (s : Subsystem) : s ∈ allSubsystems := by cases s <;> decide

theorem table_unique_dec : ∀ s ∈ allSubsystems, ∀ cs ∈ definition s,
    (cs.map (·.id)).Nodup ∧ (cs.map (·.name)).Nodup := by decide +kernel

theorem table_params_dec : ∀ s ∈ allSubsystems, ∀ cs ∈ definition s, ∀ c ∈ cs,
    (c.request.map (·.1)).Nodup ∧ Int8Last c.request ∧
    ∀ r ∈ c.response, (r.map (·.1)).Nodup ∧ Int8Last r := by decide +kernel

theorem table_misc_dec : ∀ s ∈ allSubsystems, ∀ cs ∈ definition s, ∀ c ∈ cs,
    c.id < 256 ∧ (c.type = .SREQ ∨ c.type = .AREQ) ∧ (c.type = .SREQ → c.response ≠ none) := by
  decide +kernel

theorem table_unique {s : Subsystem} {cs : List Cmd} (h : definition s = some cs) :
    (cs.map (·.id)).Nodup ∧ (cs.map (·.name)).Nodup :=
  table_unique_dec s (mem_allSubsystems s) cs h

theorem table_params {s : Subsystem} {c : Cmd} (h : InTable s c) :
    (c.request.map (·.1)).Nodup ∧ Int8Last c.request ∧
    ∀ r ∈ c.response, (r.map (·.1)).Nodup ∧ Int8Last r := by
  obtain ⟨cs, h1, h2⟩ := h
  exact table_params_dec s (mem_allSubsystems s) cs h1 c h2

theorem table_misc {s : Subsystem} {c : Cmd} (h : InTable s c) :
    c.id < 256 ∧ (c.type = .SREQ ∨ c.type = .AREQ) ∧ (c.type = .SREQ → c.response ≠ none) := by
  obtain ⟨cs, h1, h2⟩ := h
  exact table_misc_dec s (mem_allSubsystems s) cs h1 c h2

theorem paramsOf_nodup {s : Subsystem} {c : Cmd} {t : CommandType} {ps : Params} (h : InTable s c)
    (hp : ParamsOf c t ps) : (ps.map (·.1)).Nodup ∧ Int8Last ps := by
  obtain ⟨h1, h2, h3⟩ := table_params h
  unfold ParamsOf at hp
  split at hp
  · exact h3 ps hp
  · rw [← hp]; exact ⟨h1, h2⟩

/-- In a list without duplicate keys, searching by the key of a member finds that member. -/
theorem find_by_key {α κ : Type} [DecidableEq κ] (f : α → κ) (l : List α) (h : (l.map f).Nodup)
    (a : α) (ha : a ∈ l) : l.find? (fun x => f x == f a) = some a := by
  induction l with
  | nil => simp at ha
  | cons x l ih =>
    simp only [List.map_cons, List.nodup_cons] at h
    by_cases hx : f x = f a
    · rw [List.find?_cons_of_pos (by simpa using hx)]
      rcases List.mem_cons.mp ha with rfl | hm
      · rfl
      · exact absurd (hx ▸ List.mem_map_of_mem hm) h.1
    · rw [List.find?_cons_of_neg (by simpa using hx)]
      rcases List.mem_cons.mp ha with rfl | hm
      · exact absurd rfl hx
      · exact ih h.2 hm

theorem nextCmd_id {s : Subsystem} {c : Cmd} (h : InTable s c) :
    ∃ cs, definitionGet s = .ok cs ∧ nextCmd cs (fun x => x.id == c.id) = .ok c := by
  obtain ⟨cs, h1, h2⟩ := h
  refine ⟨cs, by rw [definitionGet, h1], ?_⟩
  rw [nextCmd, find_by_key (·.id) cs (table_unique h1).1 c h2]

theorem nextCmd_name {s : Subsystem} {c : Cmd} (h : InTable s c) :
    ∃ cs, definitionGet s = .ok cs ∧ nextCmd cs (fun x => x.name == c.name) = .ok c := by
  obtain ⟨cs, h1, h2⟩ := h
  refine ⟨cs, by rw [definitionGet, h1], ?_⟩
  rw [nextCmd, find_by_key (·.name) cs (table_unique h1).2 c h2]

theorem nextCmd_ok {cs : List Cmd} {p : Cmd → Bool} {c : Cmd} (h : nextCmd cs p = .ok c) :
    c ∈ cs ∧ p c = true := by
  unfold nextCmd at h
  split at h
  · rename_i c' hc
    simp at h
    subst h
    exact ⟨List.mem_of_find?_eq_some hc, List.find?_some hc⟩
  · simp at h

theorem definitionGet_ok {s : Subsystem} {cs : List Cmd} (h : definitionGet s = .ok cs) :
    definition s = some cs := by
  unfold definitionGet at h
  split at h
  · rename_i l hl; simp at h; rw [hl, h]
  · simp at h

/-- Building a command of the table by name. -/
theorem fromCommand_eq {s : Subsystem} {c : Cmd} (h : InTable s c) (payload : Payload) :
    Obj.fromCommand s c.name payload =
      .ok { commandType := c.type, subsystem := s, command := c.name, commandId := c.id,
            payload, parameters := c.request } := by
  obtain ⟨cs, h1, h2⟩ := nextCmd_name h
  have ht : c.type ≠ .SRSP := by
    rcases (table_misc h).2.1 with h | h <;> rw [h] <;> decide
  unfold Obj.fromCommand
  simp only [h1, ok_bind, h2, Cmd.parametersFor, if_neg ht, pure_ok]

/-- Parsing a frame that carries a command of the table. -/
theorem fromUnpiFrame_eq {s : Subsystem} {c : Cmd} {f : Frame} {ps : Params} (h : InTable s c)
    (hs : f.subsystem = s) (hid : f.commandId = c.id) (hp : ParamsOf c f.commandType ps) :
    Obj.fromUnpiFrame f = (readParameters f.data ps).map (fun payload =>
      { commandType := f.commandType, subsystem := s, command := c.name, commandId := c.id,
        payload, parameters := ps }) := by
  obtain ⟨cs, h1, h2⟩ := nextCmd_id h
  have hps : (c.parametersFor f.commandType) = .ok ps := by
    unfold ParamsOf at hp
    unfold Cmd.parametersFor
    split at hp
    · rename_i ht; rw [if_pos ht, Cmd.responseGet, hp]
    · rename_i ht; rw [if_neg ht, hp]
  unfold Obj.fromUnpiFrame
  simp only [hs, h1, ok_bind, hid, h2]
  rw [hps, ok_bind]
  rcases readParameters f.data ps with e | p <;> rfl

/-- Whatever is parsed comes from the table. -/
theorem fromUnpiFrame_ok {f : Frame} {o : Obj} (h : Obj.fromUnpiFrame f = .ok o) :
    ∃ c, InTable f.subsystem c ∧ c.id = f.commandId ∧ ParamsOf c f.commandType o.parameters ∧
      readParameters f.data o.parameters = .ok o.payload ∧
      o = { commandType := f.commandType, subsystem := f.subsystem, command := c.name,
            commandId := c.id, payload := o.payload, parameters := o.parameters } := by
  unfold Obj.fromUnpiFrame at h
  rcases hd : definitionGet f.subsystem with e | cs
  · rw [hd, error_bind] at h; simp at h
  rw [hd, ok_bind] at h
  rcases hn : nextCmd cs (fun c => c.id == f.commandId) with e | c
  · rw [hn, error_bind] at h; simp at h
  rw [hn, ok_bind] at h
  obtain ⟨hm, hid⟩ := nextCmd_ok hn
  simp only [beq_iff_eq] at hid
  have hin : InTable f.subsystem c := ⟨cs, definitionGet_ok hd, hm⟩
  rcases hps : (c.parametersFor f.commandType) with e | ps
  · rw [hps, error_bind] at h; simp at h
  rw [hps, ok_bind] at h
  have hp : ParamsOf c f.commandType ps := by
    unfold ParamsOf
    unfold Cmd.parametersFor at hps
    split at hps
    · rename_i ht
      rw [if_pos ht]
      unfold Cmd.responseGet at hps
      split at hps
      · rename_i r hr; simp at hps; rw [hr, hps]
      · simp at hps
    · rename_i ht
      rw [if_neg ht]
      simpa using hps
  rcases hr : readParameters f.data ps with e | pl
  · rw [hr, error_bind] at h; simp at h
  rw [hr, ok_bind, pure_ok] at h
  simp only [Except.ok.injEq] at h
  subst h
  exact ⟨c, hin, hid, hp, hr, rfl⟩

end Zcc
