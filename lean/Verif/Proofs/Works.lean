import Verif.Spec.Works
import Verif.Props.Blame
import Verif.Proofs.Closed

/-!
# A radio that works gives no reason to fail
-/

namespace Zcc

open Spec

/-- Where the events of the API come from. -/
theorem client_sources {α : Type} (p : Prog α) (evs : List ClientEvent) :
    ∃ es, (Client.run p evs).api = Api.init.run es ∧
      (∀ o q, .registerResponse o q ∈ es → ClientEvent.api (.registerResponse o q) ∈ evs) ∧
      ∀ m to q, .register m to q ∈ es → ClientEvent.api (.register m to q) ∈ evs ∨ q = none := by
  induction evs using client_ind with
  | h0 => exact ⟨[], rfl, fun _ _ h => (by cases h), fun _ _ _ h => (by cases h)⟩
  | h1 evs ev ih =>
    obtain ⟨es, he, h1, h2⟩ := ih
    rw [client_snoc]
    have keep : ((Client.run p evs).step ev).api = (Client.run p evs).api →
        ∃ es, ((Client.run p evs).step ev).api = Api.init.run es ∧
      (∀ o q, .registerResponse o q ∈ es → ClientEvent.api (.registerResponse o q) ∈ evs ++ [ev]) ∧
      ∀ m to q, .register m to q ∈ es → ClientEvent.api (.register m to q) ∈ evs ++ [ev] ∨ q = none :=
      fun h => ⟨es, h.trans he, fun o q h => List.mem_append_left _ (h1 o q h),
        fun m to q h => (h2 m to q h).imp (List.mem_append_left _) id⟩
    have more : ∀ {e : Event}, ((Client.run p evs).step ev).api = (Client.run p evs).api.step e →
        (ev = .api e ∨ (∃ o x, e = .submit o none x) ∨ (∃ t, e = .cancel t) ∨ (∃ w, e = .abandon w) ∨
          ∃ m to, e = .register m to none) →
        ∃ es, ((Client.run p evs).step ev).api = Api.init.run es ∧
      (∀ o q, .registerResponse o q ∈ es → ClientEvent.api (.registerResponse o q) ∈ evs ++ [ev]) ∧
      ∀ m to q, .register m to q ∈ es → ClientEvent.api (.register m to q) ∈ evs ++ [ev] ∨ q = none := by
      intro e h hc
      refine ⟨es ++ [e], by rw [h, he, run_snoc], fun o q h => ?_, fun m to q h => ?_⟩
      · rcases List.mem_append.mp h with h | h
        · exact List.mem_append_left _ (h1 o q h)
        · rw [← List.mem_singleton.mp h] at hc
          rcases hc with rfl | ⟨_, _, h⟩ | ⟨_, h⟩ | ⟨_, h⟩ | ⟨_, _, h⟩
          · exact List.mem_append_right _ (.head _)
          all_goals cases h
      · rcases List.mem_append.mp h with h | h
        · exact (h2 m to q h).imp (List.mem_append_left _) id
        · rw [← List.mem_singleton.mp h] at hc
          rcases hc with rfl | ⟨_, _, h⟩ | ⟨_, h⟩ | ⟨_, h⟩ | ⟨_, _, h⟩
          · exact .inl (List.mem_append_right _ (.head _))
          · cases h
          · cases h
          · cases h
          · cases h; exact .inr rfl
    cases client_stepped (Client.run p evs) ev with
    | same h _ _ _ => exact keep h
    | event e hc h _ _ _ =>
      refine more h ?_
      rcases hc with h | ⟨o, h⟩ | ⟨t, -, h, -⟩
      · exact .inl h
      · exact .inr (.inl ⟨o, none, h⟩)
      · exact .inr (.inr (.inl ⟨t, h⟩))
    | submit _ _ _ h _ _ _ => exact more h (.inr (.inl ⟨_, _, rfl⟩))
    | wait _ h _ _ _ => exact keep h
    | @ended _ _ op k r _ hend _ _ _ =>
      generalize (⟨op, r⟩ : Act) = a at hend
      obtain ⟨s, hs⟩ : ∃ s, ((Client.run p evs).step ev).api = s := ⟨_, rfl⟩
      rw [hs] at hend
      cases hend with
      | waitFor => exact more hs (.inr (.inr (.inr (.inr ⟨_, _, rfl⟩))))
      | late => exact more hs (.inr (.inr (.inr (.inl ⟨_, rfl⟩))))
      | interrupted => exact more hs (.inr (.inr (.inr (.inl ⟨_, rfl⟩))))
      | _ => exact keep hs

/-- The port after an event. -/
def uartAfter (b : Bool) : ClientEvent → Bool
  | .api (.setUart b') => b'
  | _ => b

theorem uartAfter_other {b : Bool} {ev : ClientEvent} (h : ¬ ∃ b', ev = .api (.setUart b')) :
    uartAfter b ev = b := by
  unfold uartAfter
  split
  · exact absurd ⟨_, rfl⟩ h
  · rfl

/-- The port of the API. -/
theorem client_uart {α : Type} (p : Prog α) (evs : List ClientEvent) (ev : ClientEvent) :
    (Client.run p (evs ++ [ev])).api.uart = uartAfter (Client.run p evs).api.uart ev := by
  rw [client_snoc]
  by_cases hu : ∃ b, ev = .api (.setUart b)
  · obtain ⟨b, rfl⟩ := hu
    rfl
  · rw [uartAfter_other hu]
    have step : ∀ {e : Event} {s : Api}, s = (Client.run p evs).api.step e → (∀ b, e ≠ .setUart b) →
        s.uart = (Client.run p evs).api.uart := fun h hb => by rw [h]; exact (mute_step _ _ hb).1
    cases client_stepped (Client.run p evs) ev with
    | same h _ _ _ => rw [h]
    | event e hc h _ _ _ =>
      refine step h fun b hb => ?_
      rcases hc with h | ⟨o, h⟩ | ⟨t, -, h, -⟩
      · exact hu ⟨b, by rw [h, hb]⟩
      · rw [hb] at h; cases h
      · rw [hb] at h; cases h
    | submit _ _ _ h _ _ _ => exact step h fun b hb => by cases hb
    | wait _ h _ _ _ => rw [h]
    | @ended _ _ op k r _ hend _ _ _ =>
      generalize (⟨op, r⟩ : Act) = a at hend
      obtain ⟨s, hs⟩ : ∃ s, ((Client.run p evs).step ev).api = s := ⟨_, rfl⟩
      rw [hs] at hend ⊢
      cases hend with
      | waitFor => exact step rfl fun b hb => by cases hb
      | late => exact step rfl fun b hb => by cases hb
      | interrupted => exact step rfl fun b hb => by cases hb
      | _ => rfl

theorem client_open {α : Type} (p : Prog α) (evs : List ClientEvent) (h : PortOpened evs) :
    (Client.run p evs).api.uart = true := by
  induction evs using client_ind with
  | h0 => cases h.1
  | h1 evs ev ih =>
    rw [client_uart]
    by_cases hu : ∃ b, ev = .api (.setUart b)
    · obtain ⟨b, rfl⟩ := hu
      cases b with
      | true => rfl
      | false => exact absurd (List.mem_append_right _ (.head _)) h.2
    · rw [uartAfter_other hu]
      refine ih ⟨?_, fun hm => h.2 (List.mem_append_left _ hm)⟩
      rcases List.mem_append.mp h.1 with h | h
      · exact h
      · exact absurd ⟨true, (List.mem_singleton.mp h).symm⟩ hu

theorem portOpened_more {a b : List ClientEvent} (h : PortOpened a) (hb : .api (.setUart false) ∉ b) :
    PortOpened (a ++ b) :=
  ⟨List.mem_append_left _ h.1, fun hm => (List.mem_append.mp hm).elim h.2 hb⟩

/-- Nobody takes a message away. -/
theorem no_sequences {α : Type} (p : Prog α) {evs : List ClientEvent} (h : LeftAlone evs) :
    ∀ y ∈ (Client.run p evs).api.waiters, y.sequence = none := by
  obtain ⟨es, he, h1, h2⟩ := client_sources p evs
  have hs : RegsSat (fun _ q => q = none) (Api.init.run es).log := by
    refine regsSat_run' (P := fun _ q => q = none) (fun _ _ _ _ => rfl) es Api.init (fun x t hx => by simp [Api.init] at hx) ?_ ?_
    · intro e hm o q heq
      subst heq
      exact (h _ (h1 o q hm)).elim
    · intro e hm m to q heq
      subst heq
      rcases h2 m to q hm with hm | hq
      · exact (h _ hm).elim
      · exact hq
  intro y hy
  rw [he] at hy
  obtain ⟨time, hr, -⟩ := (inv_run es).wait.regW y hy
  exact hs y time hr

theorem leftAlone_left {a b : List ClientEvent} (h : LeftAlone (a ++ b)) : LeftAlone a :=
  fun ev hm => h ev (List.mem_append_left _ hm)

theorem leftAlone_polite {evs : List ClientEvent} (h : LeftAlone evs) : ∀ m timeout q,
    ClientEvent.api (.register m timeout q) ∈ evs → StartupMatcher m ∧ q = none :=
  fun _ _ _ hm => (h _ hm).elim

theorem leftAlone_unshared {evs : List ClientEvent} (h : LeftAlone evs) (l : List Act) :
    Unshared evs l := fun _ _ _ hm => (h _ hm).elim

/-- A message that came in time was not waited for in vain. -/
theorem not_inVain {α : Type} {p : Prog α} {evs : List ClientEvent} {m : Matcher} {ms : Nat}
    {P : Frame → Prop} (hu : LeftAlone evs) (hr : ReportsInTime p evs m ms P)
    (hP : ∀ f, P f → ∃ rsp, Obj.fromUnpiFrame f = .ok rsp ∧ Answers m rsp) : ¬ InVain p evs m ms := by
  rintro ⟨a, b, w, d, time, rfl, hp, hreg, ht, hno⟩
  obtain ⟨a', f, b', ha, h1, h2, hf⟩ := hr a b w d time rfl hp hreg ht
  obtain ⟨rsp, hd, hans⟩ := hP f hf
  obtain ⟨y, hy, hq, -⟩ := hno a' f b' rsp ha h1 h2 hd hans
  refine hq (no_sequences p ?_ y hy)
  have hu' : LeftAlone a := leftAlone_left hu
  rw [ha] at hu'
  exact leftAlone_left hu'

theorem started_answers {f : Frame} (h : StartedFrame f) :
    ∃ rsp, Obj.fromUnpiFrame f = .ok rsp ∧ Answers startedMatcher rsp := by
  obtain ⟨h1, h2, h3, rest, h4⟩ := h
  obtain ⟨o, ho, k1, k2, k3, k4⟩ := (c80_reports (t := .AREQ) (s := .ZDO) (n := 0xC0)
    (name := "stateChangeInd") (fields := [("state", .u8)]) (by decide +kernel) h1 h2 h3).1
    [("state", .int 9)] (by rw [h4]; rfl)
  refine ⟨o, ho, k1.symm, k2.symm, k3.symm, fun x hx => ?_⟩
  rw [k4]
  cases List.mem_singleton.mp hx
  rfl

theorem endpoints_answers {f : Frame} (h : EndpointsFrame f) :
    ∃ rsp, Obj.fromUnpiFrame f = .ok rsp ∧ Answers endpointsMatcher rsp := by
  obtain ⟨h1, h2, h3, ⟨t, s, n, name, fields⟩, hm, l1, l2, l3, l4⟩ := h
  dsimp only at l1 l2 l3 l4
  obtain ⟨q, hq⟩ := Option.isSome_iff_exists.mp l4
  obtain ⟨o, ho, k1, k2, k3, k4⟩ := (c80_reports hm l1.symm l2.symm l3.symm).1 q hq
  refine ⟨o, ho, by rw [k1, l1, h1]; rfl, by rw [k2, l2, h2]; rfl, ?_, fun x hx => by cases hx⟩
  rw [k3]
  have hall : (reports.all fun r => r.1 != .AREQ || r.2.1 != .ZDO || r.2.2.1 != 0x85 ||
    r.2.2.2.1 == "activeEpRsp") = true := by decide +kernel
  have := List.all_eq_true.mp hall _ hm
  dsimp only at this
  rw [l1, l2, l3, h1, h2, h3] at this
  have : name = "activeEpRsp" := by simpa using this
  exact this.symm

/-- No reason to fail. -/
theorem no_blame {α : Type} {p : Prog α} {evs : List ClientEvent} (hu : LeftAlone evs)
    (hp : ¬ PortLost p evs) (hw : Works p evs) (e : PyErr) : ¬ Blame p evs e := by
  intro hb
  cases hb with
  | connect h =>
    obtain ⟨h1, h2, hh⟩ := List.append_of_mem h
    obtain ⟨x, ev, y, k, s, rfl, -, -, hend⟩ := act_moment p evs hh
    cases hend
    exact hu (.connected (.error e)) (List.mem_append_right _ (.head _))
  | closed h => exact hp h
  | cancelled h =>
    obtain ⟨a, ev, b, rfl, h⟩ := h
    have := hu ev (List.mem_append_right _ (.head _))
    rcases h with ⟨rfl, -⟩ | ⟨t, rfl, -⟩ | ⟨m, timeout, w, rfl, -⟩
    all_goals exact this
  | unanswered h =>
    obtain ⟨a, b, t, x, time, rfl, h1, h2, h3, h4⟩ := h
    obtain ⟨a', f, b', k1, k2, k3, k4⟩ := hw.answers a b t x time _ rfl h1 h2 h3
    exact h4 a' f b' k1 k2 k3 k4
  | refused h =>
    obtain ⟨a, b, t, ask, f, n, rest, rfl, h1, h2, h3, h4, h5, h6, h7, h8, h9⟩ := h
    exact h9 (hw.accepts a b t ask f n _ rest rfl h1 h2 h3 h4 h5 h6 h7 h8)
  | notStarted h => exact not_inVain hu hw.starts (fun _ => started_answers) h
  | notCommissioned h => exact not_inVain hu hw.starts (fun _ => started_answers) h
  | noEndpoints h => exact not_inVain hu hw.lists (fun _ => endpoints_answers) h
  | product h hf hb =>
    have := hw.kind _ _ _ _ h hf
    exact UInt8.not_le.mpr hb this

end Zcc
