import Verif.Proofs.ConnectionLog

/-!
# The wake-up byte and the pause after it
-/

namespace Zcc.Conn

open Zcc Spec

/-- The notes about wake-up bytes. -/
def woken : List Note → List Nat
  | [] => []
  | .wakeup l :: log => l :: woken log
  | _ :: log => woken log

theorem woken_append (a b : List Note) : woken (a ++ b) = woken a ++ woken b := by
  induction a with
  | nil => rfl
  | cons n a ih => cases n <;> simp [woken, ih]

theorem woken_count (log : List Note) (l : Nat) : (woken log).count l = log.count (.wakeup l) := by
  induction log with
  | nil => rfl
  | cons n log ih => cases n <;> simp [woken, ih, List.count_cons]

theorem woken_mem {log : List Note} {l : Nat} : l ∈ woken log ↔ Note.wakeup l ∈ log := by
  rw [← List.count_pos_iff, woken_count, List.count_pos_iff]

/-- No wake-up byte is written, no task begins to wait for it, and no connection becomes known. -/
structure Asleep (s s' : St) : Prop where
  now : s.now ≤ s'.now
  nlinks : s.nlinks ≤ s'.nlinks
  settling : ∀ t u, (s'.tasks t).pc = .settling u →
    (s.tasks t).pc = .settling u ∧ (s'.tasks t).link = (s.tasks t).link
  connecting : ∀ t, (s'.tasks t).pc = .connecting →
    ((s.tasks t).pc = .connecting ∧ (s'.tasks t).link = (s.tasks t).link) ∨
    ∀ l, (s'.tasks t).link = some l → s.nlinks ≤ l
  known : ∀ l, Known s' l → Known s l
  woken : woken s'.log = woken s.log

theorem Asleep.refl (s : St) : Asleep s s :=
  ⟨Nat.le_refl _, Nat.le_refl _, fun _ _ h => ⟨h, rfl⟩, fun _ h => .inl ⟨h, rfl⟩, fun _ h => h, rfl⟩

theorem Asleep.trans {a b c : St} (h : Asleep a b) (h' : Asleep b c) : Asleep a c := by
  refine ⟨Nat.le_trans h.now h'.now, Nat.le_trans h.nlinks h'.nlinks, ?_, ?_, fun l hl => h.known l (h'.known l hl),
    h'.woken.trans h.woken⟩
  · intro t u hp
    obtain ⟨h1, h2⟩ := h'.settling t u hp
    obtain ⟨h3, h4⟩ := h.settling t u h1
    exact ⟨h3, h2.trans h4⟩
  · intro t hp
    rcases h'.connecting t hp with ⟨h1, h2⟩ | h1
    · rcases h.connecting t h1 with ⟨h3, h4⟩ | h3
      · exact .inl ⟨h3, h2.trans h4⟩
      · exact .inr fun l hl => h3 l (h2.symm.trans hl)
    · exact .inr fun l hl => Nat.le_trans h.nlinks (h1 l hl)

theorem asleep_setTask (s : St) (t : Nat) (k : Task) (h1 : ∀ u, k.pc ≠ .settling u)
    (h2 : k.pc = .connecting → ∀ l, k.link = some l → s.nlinks ≤ l) : Asleep s (s.setTask t k) := by
  refine ⟨Nat.le_refl _, Nat.le_refl _, ?_, ?_, fun _ h => h, rfl⟩
  · intro t' u hp
    by_cases he : t' = t
    · subst he
      rw [show (s.setTask t' k).tasks t' = k from upd_same _ _ _] at hp
      exact absurd hp (h1 u)
    · rw [show (s.setTask t k).tasks t' = s.tasks t' from upd_other he] at hp ⊢
      exact ⟨hp, rfl⟩
  · intro t' hp
    by_cases he : t' = t
    · subst he
      rw [show (s.setTask t' k).tasks t' = k from upd_same _ _ _] at hp ⊢
      exact .inr (h2 hp)
    · rw [show (s.setTask t k).tasks t' = s.tasks t' from upd_other he] at hp ⊢
      exact .inl ⟨hp, rfl⟩

theorem asleep_setLink (s : St) (l : Nat) (k : Link) (h : k.uart = true → (s.links l).uart = true) :
    Asleep s (s.setLink l k) := by
  refine ⟨Nat.le_refl _, Nat.le_refl _, fun _ _ h => ⟨h, rfl⟩, fun _ h => .inl ⟨h, rfl⟩, ?_, rfl⟩
  rintro l' (hk | hk)
  · left
    by_cases he : l' = l
    · subst he
      rw [show (s.setLink l' k).links l' = k from upd_same _ _ _] at hk
      exact h hk
    · rw [show (s.setLink l k).links l' = s.links l' from upd_other he] at hk
      exact hk
  · exact .inr hk

theorem asleep_note (s : St) (n : Note) (h1 : ∀ l, n ≠ .wakeup l) (h2 : ∀ l, n = .closed l → Known s l) :
    Asleep s (s.note n) := by
  refine ⟨Nat.le_refl _, Nat.le_refl _, fun _ _ h => ⟨h, rfl⟩, fun _ h => .inl ⟨h, rfl⟩, ?_, ?_⟩
  · rintro l (hk | hk)
    · exact .inl hk
    · rcases List.mem_append.mp hk with hk | hk
      · exact .inr hk
      · exact h2 l (List.mem_singleton.mp hk).symm
  · show Conn.woken (s.log ++ [n]) = _
    rw [woken_append]
    cases n with
    | wakeup l => exact absurd rfl (h1 l)
    | _ => exact List.append_nil _

theorem asleep_close (s : St) (l : Nat) : Asleep s (s.closeLink l) := by
  unfold St.closeLink
  dsimp only
  split
  · next hu =>
    have h1 : Asleep s (s.note (.closed l)) := asleep_note s _ (fun _ => nofun) (fun l' h => by cases h; exact .inl hu)
    exact h1.trans (asleep_setLink (s.note (.closed l)) l _ (fun h => by cases h))
  · exact .refl s

theorem asleep_closeApi (s : St) : Asleep s s.closeApi := by
  rcases closeApi_cases s with h | ⟨l, h⟩
  · rw [h]; exact .refl s
  · rw [h]; exact asleep_close s l

theorem asleep_closeOwn (s : St) (t : Nat) : Asleep s (s.closeOwn t) := by
  rcases closeOwn_cases s t with h | ⟨l, h⟩
  · rw [h]; exact .refl s
  · rw [h]; exact asleep_close s l

theorem asleep_ended {s s' : St} {t : Nat} {hist : List Act} (h : Ended s t hist s') : Asleep s s' := by
  cases h with
  | next => exact asleep_setTask s t _ (fun _ => nofun) nofun
  | returned => exact asleep_setTask s t _ (fun _ => nofun) nofun
  | raised => exact asleep_setTask s t _ (fun _ => nofun) nofun
  | found => exact (asleep_closeOwn s t).trans (asleep_setTask _ t _ (fun _ => nofun) nofun)
  | notFound => exact (asleep_closeOwn s t).trans (asleep_setTask _ t _ (fun _ => nofun) nofun)
  | again => exact (asleep_closeApi s).trans (asleep_setTask _ t _ (fun _ => nofun) nofun)

theorem asleep_resume (c : Config) (s : St) (t : Nat) (a : Act) : Asleep s (s.resume c t a) := by
  rcases resume_ended c s t a with h | h
  · rw [h]; exact .refl s
  · exact asleep_ended h

theorem asleep_connect {c : Config} {s : St} (t : Nat) (ports : List PortInfo)
    (opens : Option PyErr) (d : Nat) : Asleep s (s.connect c t ports opens d) := by
  have h0 : ∀ k : Link, k.uart = false → Asleep s (({ s with nlinks := s.nlinks + 1, now := s.now + d } : St).setLink s.nlinks k) := by
    intro k hk
    refine ⟨Nat.le_add_right _ _, Nat.le_succ _, fun _ _ h => ⟨h, rfl⟩, fun _ h => .inl ⟨h, rfl⟩, ?_, rfl⟩
    rintro l (h | h)
    · left
      by_cases he : l = s.nlinks
      · subst he
        rw [show (St.setLink _ s.nlinks k).links s.nlinks = k from upd_same _ _ _, hk] at h
        cases h
      · replace h : (upd s.links s.nlinks k l).uart = true := h
        rw [upd_other he] at h
        exact h
    · exact .inr h
  have h1 : ∀ k : Link, k.uart = false → Asleep s ((({ s with nlinks := s.nlinks + 1, now := s.now + d } : St).setLink s.nlinks
      k).setTask t { s.tasks t with pc := .connecting, link := some s.nlinks, hist := [] }) := by
    intro k hk
    refine ⟨(h0 k hk).now, (h0 k hk).nlinks, ?_, ?_, (h0 k hk).known, rfl⟩
    · intro t' u hp
      by_cases he : t' = t
      · subst he
        rw [show (St.setTask _ t' _).tasks t' = _ from upd_same _ _ _] at hp
        cases hp
      · replace hp : (upd s.tasks t _ t').pc = _ := hp
        show _ ∧ (upd s.tasks t _ t').link = _
        rw [upd_other he] at hp ⊢
        exact ⟨hp, rfl⟩
    · intro t' hp
      by_cases he : t' = t
      · subst he
        right
        intro l hl
        rw [show (St.setTask _ t' _).tasks t' = _ from upd_same _ _ _] at hl
        cases hl
        exact Nat.le_refl _
      · replace hp : (upd s.tasks t _ t').pc = _ := hp
        left
        show _ ∧ (upd s.tasks t _ t').link = _
        rw [upd_other he] at hp ⊢
        exact ⟨hp, rfl⟩
  unfold St.connect
  dsimp only
  split
  · exact (h1 _ rfl).trans (asleep_note _ _ (fun _ => nofun) (fun _ => nofun))
  · exact (h1 _ rfl).trans (asleep_resume c _ t _)
  · exact (h1 _ rfl).trans (asleep_resume c _ t _)

theorem asleep_spawn (s : St) (k : Kind) : Asleep s (s.spawn k) := by
  have : Asleep s (s.setTask s.ntasks { kind := k, deadline := s.now + 2000 }) :=
    asleep_setTask s _ _ (fun _ => nofun) nofun
  exact ⟨this.now, this.nlinks, this.settling, this.connecting, this.known, this.woken⟩

/-- What an event does, as far as the wake-up byte goes. -/
inductive WakeStep (s s' : St) (ev : Ev) : Prop where
  | asleep (h : Asleep s s')
  | write (t l : Nat) (hev : ev = .write t) (hl : (s.tasks t).link = some l) (hp : (s.tasks t).pc = .connecting)
      (h : s' = (s.setPc t (.settling (s.now + 1000))).note (.wakeup l))
  | settled (t l u : Nat) (hev : ev = .settled t) (hl : (s.tasks t).link = some l) (hp : (s.tasks t).pc = .settling u)
      (hu : u ≤ s.now) (k : Link) (m : St) (hm : m = s.setLink l k ∨ m = { s.setLink l k with api := some l })
      (h : Asleep m s')

theorem wake_step (c : Config) (s : St) (ev : Ev) : WakeStep s (step c s ev) ev := by
  unfold step
  split
  · next d =>
    exact .asleep ⟨Nat.le_add_right _ _, Nat.le_refl _, fun _ _ h => ⟨h, rfl⟩, fun _ h => .inl ⟨h, rfl⟩, fun _ h => h, rfl⟩
  · exact .asleep (asleep_spawn s _)
  · exact .asleep (asleep_spawn s _)
  · exact .asleep (asleep_closeApi s)
  · split
    · unfold St.begin
      split
      · exact .asleep ((asleep_closeApi s).trans (asleep_setTask _ _ _ (fun _ => nofun) nofun))
      · split
        · exact .asleep (asleep_connect _ _ _ _)
        · exact .asleep (.refl s)
      · exact .asleep (asleep_connect _ _ _ _)
      · exact .asleep (asleep_connect _ _ _ _)
      · exact .asleep (.refl s)
    · exact .asleep (.refl s)
  · dsimp only
    split
    · exact .asleep (asleep_setLink s _ _ (fun h => h))
    · exact .asleep (.refl s)
  · next t =>
    split
    · next l hl hp =>
      split
      · exact .write t l rfl hl hp rfl
      · exact .asleep (.refl s)
    · exact .asleep (.refl s)
  · next t =>
    split
    · next u hp =>
      split
      · next hu =>
        unfold St.connected
        split
        · next l hl _ => exact .settled t l u rfl hl hp hu _ _ (.inl rfl) (asleep_resume c _ t _)
        · next l hl _ => exact .settled t l u rfl hl hp hu _ _ (.inr rfl) (asleep_resume c _ t _)
        · exact .asleep (.refl s)
      · exact .asleep (.refl s)
    · exact .asleep (.refl s)
  · split
    · exact .asleep (asleep_resume c s _ _)
    · exact .asleep (.refl s)
  · split
    · exact .asleep (.refl s)
    · split
      · exact .asleep (asleep_ended (fail_ended' _ _ _))
      · exact .asleep (.refl s)
  · split
    · exact .asleep (.refl s)
    · split
      · exact .asleep (asleep_ended (fail_ended' _ _ _))
      · exact .asleep (.refl s)
    · exact .asleep (.refl s)
  · dsimp only
    split
    · exact .asleep (asleep_setLink s _ _ (fun h => h))
    · exact .asleep (.refl s)
  · next l =>
    split
    · unfold St.lost
      dsimp only
      have h1 : Asleep s (s.setLink l { s.links l with transport := .closed }) := asleep_setLink s _ _ (fun h => h)
      split
      · split
        · exact .asleep ((h1.trans (asleep_spawn _ _)).trans (asleep_note _ _ (fun _ => nofun) (fun _ => nofun)))
        · exact .asleep (h1.trans (asleep_note _ _ (fun _ => nofun) (fun _ => nofun)))
      · exact .asleep h1
    · exact .asleep (.refl s)

/-- After the events `evs` the wake-up byte was written to the port of `l` at time `τ`. -/
def WokeAt (c : Config) (evs : List Ev) (l τ : Nat) : Prop :=
  ∃ a t b, evs = a ++ .write t :: b ∧ (run c (a ++ [.write t])).log = (run c a).log ++ [.wakeup l] ∧
    (run c a).now = τ

theorem wokeAt_snoc {c : Config} {evs : List Ev} {l τ : Nat} (h : WokeAt c evs l τ) (ev : Ev) :
    WokeAt c (evs ++ [ev]) l τ := by
  obtain ⟨a, t, b, h1, h2, h3⟩ := h
  exact ⟨a, t, b ++ [ev], by rw [h1]; simp, h2, h3⟩

structure WakeInv (c : Config) (evs : List Ev) : Prop where
  settling : ∀ t u l, ((run c evs).tasks t).pc = .settling u → ((run c evs).tasks t).link = some l →
    ∃ τ, WokeAt c evs l τ ∧ τ + 1000 ≤ u
  known : ∀ l, Known (run c evs) l → ∃ τ, WokeAt c evs l τ ∧ τ + 1000 ≤ (run c evs).now
  connecting : ∀ t l, ((run c evs).tasks t).pc = .connecting → ((run c evs).tasks t).link = some l →
    l ∉ woken (run c evs).log
  once : ∀ l, (woken (run c evs).log).count l ≤ 1
  fresh : ∀ l, l ∈ woken (run c evs).log → l < (run c evs).nlinks

theorem wakeInv (c : Config) (evs : List Ev) : WakeInv c evs := by
  induction evs using list_induction with
  | h0 =>
    refine ⟨?_, ?_, ?_, ?_, ?_⟩
    · intro t u l h; cases h
    · intro l h; rcases h with h | h <;> cases h
    · intro t l h; cases h
    · intro l; exact Nat.zero_le _
    · intro l h; cases h
  | hs evs ev ih =>
    have hi := inv_run c evs
    have hrun := run_snoc c evs ev
    have hs := wake_step c (run c evs) ev
    rw [← hrun] at hs
    cases hs with
    | asleep h =>
      refine ⟨?_, ?_, ?_, ?_, ?_⟩
      · intro t u l hp hl
        obtain ⟨h1, h2⟩ := h.settling t u hp
        obtain ⟨τ, h3, h4⟩ := ih.settling t u l h1 (h2.symm.trans hl)
        exact ⟨τ, wokeAt_snoc h3 ev, h4⟩
      · intro l hk
        obtain ⟨τ, h3, h4⟩ := ih.known l (h.known l hk)
        exact ⟨τ, wokeAt_snoc h3 ev, Nat.le_trans h4 h.now⟩
      · intro t l hp hl
        rw [h.woken]
        rcases h.connecting t hp with ⟨h1, h2⟩ | h1
        · exact ih.connecting t l h1 (h2.symm.trans hl)
        · exact fun hm => Nat.not_lt.mpr (h1 l hl) (ih.fresh l hm)
      · intro l; rw [h.woken]; exact ih.once l
      · intro l hm; rw [h.woken] at hm; exact Nat.lt_of_lt_of_le (ih.fresh l hm) h.nlinks
    | write t l hev hl hp h =>
      have hlog : (run c (evs ++ [ev])).log = (run c evs).log ++ [.wakeup l] := by rw [h]; rfl
      have hwok : woken (run c (evs ++ [ev])).log = woken (run c evs).log ++ [l] := by
        rw [hlog, woken_append]; rfl
      have hnew : l ∉ woken (run c evs).log := ih.connecting t l hp hl
      have hother : ∀ t', t' ≠ t → (run c (evs ++ [ev])).tasks t' = (run c evs).tasks t' := by
        intro t' ht'; rw [h]; exact upd_other ht'
      have hsame : (run c (evs ++ [ev])).tasks t =
          { (run c evs).tasks t with pc := .settling ((run c evs).now + 1000) } := by
        rw [h]; exact upd_same _ _ _
      refine ⟨?_, ?_, ?_, ?_, ?_⟩
      · intro t' u l' hp' hl'
        by_cases he : t' = t
        · subst he
          rw [hsame] at hp' hl'
          cases hp'
          have : l' = l := by
            have h1 : ((run c evs).tasks t').link = some l' := hl'
            rw [hl] at h1; cases h1; rfl
          subst this
          exact ⟨_, ⟨evs, t', [], by rw [hev], by rw [← hev]; exact hlog, rfl⟩, Nat.le_refl _⟩
        · rw [hother t' he] at hp' hl'
          obtain ⟨τ, h3, h4⟩ := ih.settling t' u l' hp' hl'
          exact ⟨τ, wokeAt_snoc h3 ev, h4⟩
      · intro l' hk
        have hk' : Known (run c evs) l' := by
          rcases hk with hk | hk
          · left; rw [h] at hk; exact hk
          · right
            rw [hlog] at hk
            rcases List.mem_append.mp hk with hk | hk
            · exact hk
            · cases List.mem_singleton.mp hk
        obtain ⟨τ, h3, h4⟩ := ih.known l' hk'
        refine ⟨τ, wokeAt_snoc h3 ev, ?_⟩
        rw [h]; exact h4
      · intro t' l' hp' hl'
        by_cases he : t' = t
        · subst he
          rw [hsame] at hp'
          cases hp'
        · rw [hother t' he] at hp' hl'
          rw [hwok]
          intro hm
          rcases List.mem_append.mp hm with hm | hm
          · exact ih.connecting t' l' hp' hl' hm
          · cases List.mem_singleton.mp hm
            exact he (((hi.task t').1 l hl').2.symm.trans ((hi.task t).1 l hl).2)
      · intro l'
        rw [hwok, List.count_append]
        by_cases he : l' = l
        · subst he
          rw [List.count_eq_zero_of_not_mem hnew]
          simp
        · rw [List.count_eq_zero_of_not_mem (l := [l]) (by simpa using he)]
          exact ih.once l'
      · intro l' hm
        rw [hwok] at hm
        have : (run c (evs ++ [ev])).nlinks = (run c evs).nlinks := by rw [h]; rfl
        rw [this]
        rcases List.mem_append.mp hm with hm | hm
        · exact ih.fresh l' hm
        · cases List.mem_singleton.mp hm
          exact ((hi.task t).1 l hl).1
    | settled t l u hev hl hp hu k m hm h =>
      have hm1 : m.now = (run c evs).now ∧ m.tasks = (run c evs).tasks ∧ m.nlinks = (run c evs).nlinks ∧
          m.log = (run c evs).log ∧ ∀ l', l' ≠ l → m.links l' = (run c evs).links l' := by
        rcases hm with rfl | rfl
        · exact ⟨rfl, rfl, rfl, rfl, fun l' h => upd_other h⟩
        · exact ⟨rfl, rfl, rfl, rfl, fun l' h => upd_other h⟩
      obtain ⟨m1, m2, m3, m4, m5⟩ := hm1
      refine ⟨?_, ?_, ?_, ?_, ?_⟩
      · intro t' u' l' hp' hl'
        obtain ⟨h1, h2⟩ := h.settling t' u' hp'
        rw [m2] at h1 h2
        obtain ⟨τ, h3, h4⟩ := ih.settling t' u' l' h1 (h2.symm.trans hl')
        exact ⟨τ, wokeAt_snoc h3 ev, h4⟩
      · intro l' hk
        have hnow : (run c evs).now ≤ (run c (evs ++ [ev])).now := by rw [← m1]; exact h.now
        have hk' := h.known l' hk
        by_cases he : l' = l
        · subst he
          obtain ⟨τ, h3, h4⟩ := ih.settling t u l' hp hl
          exact ⟨τ, wokeAt_snoc h3 ev, Nat.le_trans h4 (Nat.le_trans hu hnow)⟩
        · have : Known (run c evs) l' := by
            rcases hk' with hk' | hk'
            · left; rw [m5 l' he] at hk'; exact hk'
            · right; rw [m4] at hk'; exact hk'
          obtain ⟨τ, h3, h4⟩ := ih.known l' this
          exact ⟨τ, wokeAt_snoc h3 ev, Nat.le_trans h4 hnow⟩
      · intro t' l' hp' hl'
        rw [h.woken, m4]
        rcases h.connecting t' hp' with ⟨h1, h2⟩ | h1
        · rw [m2] at h1 h2
          exact ih.connecting t' l' h1 (h2.symm.trans hl')
        · exact fun hmm => Nat.not_lt.mpr (m3 ▸ h1 l' hl') (ih.fresh l' hmm)
      · intro l'; rw [h.woken, m4]; exact ih.once l'
      · intro l' hmm
        rw [h.woken, m4] at hmm
        exact Nat.lt_of_lt_of_le (ih.fresh l' hmm) (m3 ▸ h.nlinks)

end Zcc.Conn
