import Verif.Proofs.Fifo

/-!
# Response waiters, origin of waiters, progress (helper lemmas)
-/

namespace Zcc

open Spec

/-! ## Names -/

theorem replaceReq_suffix : ∀ (n : Nat) (l : List Char), l.length ≤ n →
    ['R', 'e', 'q'] <:+ l → ['R', 's', 'p'] <:+ replaceReq l
  | n, l, hn, h => by
    unfold replaceReq
    split
    · rename_i rest
      by_cases hr : ['R', 'e', 'q'] <:+ rest
      · match n with
        | 0 => simp at hn
        | n + 1 =>
          have := replaceReq_suffix n rest (by simp at hn; omega) hr
          exact this.trans ⟨['R', 's', 'p'], rfl⟩
      · have hrest : rest = [] := by
          rcases List.suffix_cons_iff.mp h with h | h
          · simp at h; exact h
          rcases List.suffix_cons_iff.mp h with h | h
          · simp at h
          rcases List.suffix_cons_iff.mp h with h | h
          · simp at h
          · exact absurd h hr
        subst hrest
        simp [replaceReq]
    · rename_i c rest hne
      rcases List.suffix_cons_iff.mp h with h | h
      · simp only [List.cons.injEq] at h
        obtain ⟨rfl, rfl⟩ := h
        exact absurd rfl (hne [] rfl)
      · match n with
        | 0 => simp at hn
        | n + 1 =>
          have := replaceReq_suffix n rest (by simp at hn; omega) h
          exact this.trans (List.suffix_cons _ _)
    · simp at h

theorem strEndsWith_iff (s t : String) : strEndsWith s t = true ↔ t.toList <:+ s.toList := by
  unfold strEndsWith; rw [List.isSuffixOf_iff_suffix]

/-! ## Which waiters are created -/

theorem lookup_isSome (ps : Params) (vs : List Val) (prev : Option Val) (h : SizedAll prev ps vs)
    (name : String) (hn : name ∈ ps.map (·.1)) : (((ps.map (·.1)).zip vs).lookup name).isSome := by
  induction ps generalizing vs prev with
  | nil => simp at hn
  | cons p ps ih =>
    match vs, h with
    | v :: vs, h =>
      simp only [List.map_cons, List.zip_cons_cons, List.lookup_cons]
      by_cases hp : name = p.1
      · subst hp; simp
      · have hb : (name == p.1) = false := by simpa using hp
        rw [hb]
        simp only [List.map_cons, List.mem_cons] at hn
        exact ih vs _ h.2 (hn.resolve_left hp)

/-- A decoded message has a value for every declared parameter. -/
theorem payload_has {f : Frame} {o : Obj} (h : Obj.fromUnpiFrame f = .ok o) {name : String}
    (hn : name ∈ o.parameters.map (·.1)) : (o.payload.lookup name).isSome := by
  obtain ⟨vs, h1, h2⟩ := announced h
  rw [h1]; exact lookup_isSome _ _ _ h2 _ hn

theorem zdo_rsp_dec : ∀ c ∈ defZDO, strEndsWith c.name "Rsp" = true →
    "srcaddr" ∈ c.request.map (·.1) ∨ readable false c.request = false := by decide +kernel

theorem af_confirm_dec : ∀ c ∈ defAF, c.name = "dataConfirm" → "transid" ∈ c.request.map (·.1) := by
  decide +kernel

theorem zdo_state_dec : ∀ c ∈ defZDO, c.name = "stateChangeInd" →
    "state" ∈ c.request.map (·.1) := by decide +kernel

/-- What a waiter made by `create_response_waiter` looks like. -/
theorem responseWaiter_some {o : Obj} {q q' : Option Int} {m : Matcher}
    (h : responseWaiter o q = .ok (some (m, q'))) :
    (∃ v, m = ⟨.AREQ, .AF, "dataConfirm", [("transid", v)]⟩ ∧ q' = none ∧
      o.payload.lookup "transid" = some v) ∨
    (∃ v, m = ⟨.AREQ, .ZDO, String.ofList (replaceReq o.command.toList), [("srcaddr", v)]⟩ ∧
      q' = q ∧ strEndsWith o.command "Req" = true ∧ o.payload.lookup "dstaddr" = some v) := by
  unfold responseWaiter at h
  split at h
  · rcases hd : dictGet o.payload "transid" with e | v
    · rw [hd, error_bind] at h; simp at h
    · rw [hd, ok_bind] at h
      simp only [pure_ok, Except.ok.injEq, Option.some.injEq, Prod.mk.injEq] at h
      refine .inl ⟨v, h.1.symm, h.2.symm, ?_⟩
      unfold dictGet at hd
      split at hd <;> simp_all
  · split at h
    · rename_i hc
      rcases hd : definitionGet o.subsystem with e | cs
      · rw [hd] at h; simp [bind, Except.bind] at h
      · rw [hd] at h
        simp only [ok_bind] at h
        split at h
        · rcases hd' : dictGet o.payload "dstaddr" with e | v
          · rw [hd', error_bind] at h; simp at h
          · rw [hd', ok_bind] at h
            simp only [pure_ok, Except.ok.injEq, Option.some.injEq, Prod.mk.injEq] at h
            refine .inr ⟨v, h.1.symm, h.2.symm, hc.2, ?_⟩
            unfold dictGet at hd'
            split at hd' <;> simp_all
        · simp [pure, Except.pure] at h
    · simp [pure, Except.pure] at h

theorem fromUnpiFrame_readable {f : Frame} {o : Obj} (h : Obj.fromUnpiFrame f = .ok o) :
    readable false o.parameters = true := by
  obtain ⟨c, hc, hid, hp, hr, ho⟩ := fromUnpiFrame_ok h
  obtain ⟨hn, h8⟩ := paramsOf_nodup hc hp
  rw [readParameters_eq _ hn] at hr
  rcases hv : readVals none o.parameters f.data with e | ⟨vs, rest⟩
  · rw [hv] at hr; simp [Except.map] at hr
  · exact readVals_readable _ none _ _ _ hv

/-- A decoded indication: its parameters are those of its command. -/
theorem decoded_areq {f : Frame} {o : Obj} (h : Obj.fromUnpiFrame f = .ok o)
    (ht : o.commandType = .AREQ) {s : Subsystem} (hs : o.subsystem = s) :
    ∃ cs c, definition s = some cs ∧ c ∈ cs ∧ c.name = o.command ∧ o.parameters = c.request := by
  obtain ⟨c, ⟨cs, h1, h2⟩, hid, hp, hr, ho⟩ := fromUnpiFrame_ok h
  have hft : f.commandType = .AREQ := by rw [ho] at ht; exact ht
  have hfs : f.subsystem = s := by rw [ho] at hs; exact hs
  unfold ParamsOf at hp
  rw [hft, if_neg (by decide)] at hp
  refine ⟨cs, c, by rw [← hfs]; exact h1, h2, by rw [ho], hp.symm⟩

/-- Waiters made by the API itself can be compared with every received message. -/
theorem response_comparable {o : Obj} {q q' : Option Int} {m : Matcher}
    (h : responseWaiter o q = .ok (some (m, q'))) {f : Frame} {r : Obj}
    (hr : Obj.fromUnpiFrame f = .ok r) : Comparable m r := by
  rcases responseWaiter_some h with ⟨v, rfl, _, _⟩ | ⟨v, rfl, _, he, _⟩
  · intro h1 h2 h3 p hp
    simp at hp; subst hp
    obtain ⟨cs, c, hd, hc, hn, hps⟩ := decoded_areq hr h1.symm h2.symm
    cases hd
    exact payload_has hr (by rw [hps]; exact af_confirm_dec c hc (hn.trans h3.symm))
  · intro h1 h2 h3 p hp
    simp at hp; subst hp
    obtain ⟨cs, c, hd, hc, hn, hps⟩ := decoded_areq hr h1.symm h2.symm
    cases hd
    have hsuf : strEndsWith c.name "Rsp" = true := by
      rw [hn, ← h3, strEndsWith_iff]
      rw [strEndsWith_iff] at he
      simpa using replaceReq_suffix _ _ (Nat.le_refl _) he
    rcases zdo_rsp_dec c hc hsuf with h | h
    · exact payload_has hr (by rw [hps]; exact h)
    · have := fromUnpiFrame_readable hr
      rw [hps, h] at this; simp at this

theorem own_comparable {o : Obj} {m : Matcher} {to : Nat} (h : ownWaiter o = some (m, to))
    (r : Obj) : Comparable m r := by
  unfold ownWaiter at h
  split at h
  · cases h; intro _ _ _ p hp; simp at hp
  · split at h
    · cases h; intro _ _ _ p hp; simp at hp
    · simp at h

/-! ## Where waiters come from -/

/-- Every registered waiter's matcher and transaction number satisfy `P`. -/
def RegsSat (P : Matcher → Option Int → Prop) (L : List Entry) : Prop :=
  ∀ x t, .registered x t ∈ L → P x.matcher x.sequence

theorem RegsSat.note {P L} (h : RegsSat P L) {e : Entry} (he : e.regId = none) :
    RegsSat P (L ++ [e]) := by
  intro x t hx
  rcases List.mem_append.mp hx with hx | hx
  · exact h x t hx
  · rw [List.mem_singleton] at hx; subst hx; simp [Entry.regId] at he

theorem RegsSat.register {P L} (h : RegsSat P L) {w : Waiter} (hw : P w.matcher w.sequence) (time : Nat) :
    RegsSat P (L ++ [.registered w time]) := by
  intro x t hx
  rcases List.mem_append.mp hx with hx | hx
  · exact h x t hx
  · rw [List.mem_singleton] at hx; cases hx; exact hw

theorem RegsSat.setResult {P} {s : Api} (h : RegsSat P s.log) (w : Nat) (o : Obj) :
    RegsSat P (s.setResult w o).log := by
  rcases (setResult_fields s w o).2.2.2.2.2.2 with e | e
  · rw [e]; exact h
  · rw [e]; exact h.note rfl

theorem RegsSat.matchLoop {P} (o : Obj) : ∀ (ws : List Waiter) (s : Api), RegsSat P s.log →
    RegsSat P (Api.matchLoop o ws s).1.log
  | [], s, h => h
  | w :: ws, s, h => by
    rw [Api.matchLoop]
    split
    · exact h
    · exact RegsSat.matchLoop o ws s h
    · have h' := RegsSat.setResult (s := s.pop w.id) h w.id o
      dsimp only
      split
      · exact h'
      · exact RegsSat.matchLoop o ws _ h'

theorem RegsSat.uartSend {P} {s s' : Api} {t : Nat} {f : Frame} (h : s.uartSend t f = .ok s')
    (i : RegsSat P s.log) : RegsSat P s'.log := by
  unfold Api.uartSend at h
  split at h
  · split at h
    · simp at h
    · cases h; exact i.note rfl
  · simp at h

theorem RegsSat.finish {P} {s : Api} (h : RegsSat P s.log) (t : Nat)
    (r : Except PyErr (Option Obj)) : RegsSat P (s.finish t r).log := h.note rfl

theorem RegsSat.start {P} (hown : ∀ o m to, ownWaiter o = some (m, to) → P m none) {s : Api}
    (h : RegsSat P s.log) (t : Nat) (o : Obj) : RegsSat P (s.start t o).log := by
  unfold Api.start
  split
  · exact h.finish _ _
  · split
    · rename_i m to hw
      dsimp only
      have j : RegsSat P (s.waitFor m to none).2.log :=
        h.register (w := ⟨s.waiterId, m, to, none⟩) (hown _ _ _ hw) _
      split
      · exact j.finish _ _
      · rename_i s' h'
        rw [(setPc_wl s' t _).2]
        exact j.uartSend h'
    · split
      · split
        · exact h.finish _ _
        · rename_i h'; exact (RegsSat.uartSend h' h).finish _ _
      · exact h.finish _ _

theorem RegsSat.grant {P} (hown : ∀ o m to, ownWaiter o = some (m, to) → P m none) {s : Api}
    (h : RegsSat P s.log) : RegsSat P s.grant.log := by
  unfold Api.grant
  split
  · split
    · rename_i t q _ _ _ k _
      refine RegsSat.start hown ?_ _ _
      rw [(setPc_wl { s with holder := some t, queue := q } t .running).2]; exact h
    · exact h
  · exact h

theorem RegsSat.step {P} (hown : ∀ o m to, ownWaiter o = some (m, to) → P m none)
    {s : Api} (h : RegsSat P s.log) (e : Event)
    (hresp : ∀ o q, e = .registerResponse o q → ∀ m q', responseWaiter o q = .ok (some (m, q')) → P m q')
    (he : ∀ m to q, e = .register m to q → P m q) :
    RegsSat P (s.step e).log := by
  cases e with
  | submit o w x =>
    rw [Api.step]
    have je : RegsSat P (s.enqueue o w x).log := h.note rfl
    split
    · exact je.grant hown
    · exact je
  | grant => exact h.grant hown
  | frame f =>
    rw [Api.step]
    unfold Api.dataReceived
    split
    · exact h
    · rename_i o _
      have h1 : RegsSat P (s.log ++ [.received f o]) := h.note rfl
      have h2 := RegsSat.matchLoop o s.waiters { s with log := s.log ++ [.received f o] } h1
      dsimp only
      split
      · rename_i h'; rw [h'] at h2; exact h2
      · rename_i h'; rw [h'] at h2; exact h2.note rfl
  | wake t =>
    rw [Api.step]
    split
    · split
      · split
        · unfold Api.conclude
          split
          · split
            · exact h.finish _ _
            · split
              · exact h.finish _ _
              · split
                · rename_i w _ _
                  have : RegsSat P (s.drop w).log := h.note rfl
                  exact (this.setResult w _).finish _ _
                · exact h.finish _ _
          · exact h.finish _ _
        · exact h
      · exact h
    · exact h
  | timeout t =>
    rw [Api.step]
    split
    · split
      · split
        · exact h.finish _ _
        · exact h
      · exact h
    · exact h
  | cancel t =>
    rw [Api.step]
    split
    · split
      · exact h.note rfl
      · exact h.finish _ _
      · exact h
    · exact h
  | timer w =>
    rw [Api.step]
    split
    · unfold Api.timerCallback
      split
      · exact h
      · exact h.note rfl
    · exact h
  | tick ms => exact h
  | setUart b => exact h
  | register m to q => exact h.register (w := ⟨s.waiterId, m, to, q⟩) (he m to q rfl) _
  | registerResponse o q =>
    rw [Api.step]
    unfold Api.createResponseWaiter
    split
    · exact h
    · exact h
    · rename_i m q' hr
      exact h.register (w := ⟨s.waiterId, m, timeoutDefault, q'⟩) (hresp _ _ rfl _ _ hr) _
  | abandon w =>
    rw [Api.step]
    split <;> exact h

theorem regsSat_run' {P} (hown : ∀ o m to, ownWaiter o = some (m, to) → P m none) :
    ∀ (es : List Event) (s : Api), RegsSat P s.log →
    (∀ e ∈ es, ∀ o q, e = .registerResponse o q →
      ∀ m q', responseWaiter o q = .ok (some (m, q')) → P m q') →
    (∀ e ∈ es, ∀ m to q, e = .register m to q → P m q) → RegsSat P (s.run es).log
  | [], _, h, _, _ => h
  | e :: es, s, h, hresp, he =>
    regsSat_run' hown es (s.step e) (h.step hown e (hresp e List.mem_cons_self) (he e List.mem_cons_self))
      (fun e' h' => hresp e' (List.mem_cons_of_mem _ h'))
      (fun e' h' => he e' (List.mem_cons_of_mem _ h'))

theorem regsSat_run {P} (hown : ∀ o m to, ownWaiter o = some (m, to) → P m none)
    (hresp : ∀ o q m q', responseWaiter o q = .ok (some (m, q')) → P m q')
    (es : List Event) (s : Api) (h : RegsSat P s.log)
    (he : ∀ e ∈ es, ∀ m to q, e = .register m to q → P m q) : RegsSat P (s.run es).log :=
  regsSat_run' hown es s h (fun _ _ o q _ m q' hr => hresp o q m q' hr) he

theorem matchLoop_no_error (o : Obj) : ∀ (ws : List Waiter) (s : Api),
    (∀ x ∈ ws, Comparable x.matcher o) → ∃ q, (Api.matchLoop o ws s).2 = .ok q
  | [], s, _ => ⟨none, rfl⟩
  | w :: ws, s, h => by
    rw [Api.matchLoop]
    split
    · rename_i e he
      obtain ⟨b, hb⟩ := match_ok (h w List.mem_cons_self)
      rw [hb] at he; simp at he
    · exact matchLoop_no_error o ws s (fun x hx => h x (List.mem_cons_of_mem _ hx))
    · dsimp only
      split
      · exact ⟨_, rfl⟩
      · exact matchLoop_no_error o ws _ (fun x hx => h x (List.mem_cons_of_mem _ hx))

/-! ## Effect of a message on the waiters -/

theorem matchLoop_effect (o : Obj) : ∀ (ws : List Waiter) (s : Api),
    (∀ x ∈ s.waiters, x ∉ (Api.matchLoop o ws s).1.waiters →
      ∃ y ∈ ws, y.id = x.id ∧ Answers y.matcher o) ∧
    (∀ w, (Api.matchLoop o ws s).1.fut w ≠ s.fut w →
      ∃ y ∈ ws, y.id = w ∧ Answers y.matcher o ∧ s.fut w = .pending ∧
        (Api.matchLoop o ws s).1.fut w = .result o)
  | [], s => by simp [Api.matchLoop]
  | w :: ws, s => by
    rw [Api.matchLoop]
    split
    · exact ⟨fun x hx hn => absurd hx hn, fun v hv => absurd rfl hv⟩
    · have ih := matchLoop_effect o ws s
      refine ⟨fun x hx hn => ?_, fun v hv => ?_⟩
      · obtain ⟨y, hy, h⟩ := ih.1 x hx hn
        exact ⟨y, List.mem_cons_of_mem _ hy, h⟩
      · obtain ⟨y, hy, h⟩ := ih.2 v hv
        exact ⟨y, List.mem_cons_of_mem _ hy, h⟩
    · rename_i ht
      have ha := (match_true _ _).mp ht
      have fs := setResult_fields (s.pop w.id) w.id o
      -- the effect of the first match alone
      have e1 : ∀ x ∈ s.waiters, x ∉ ((s.pop w.id).setResult w.id o).waiters → w.id = x.id := by
        intro x hx hn
        rw [fs.2.2.1] at hn
        by_cases h : x.id = w.id
        · exact h.symm
        · exact absurd (List.mem_filter.mpr ⟨hx, by simpa using h⟩) hn
      have e2 : ∀ v, ((s.pop w.id).setResult w.id o).fut v ≠ s.fut v →
          w.id = v ∧ s.fut v = .pending ∧ ((s.pop w.id).setResult w.id o).fut v = .result o := by
        intro v hv
        unfold Api.setResult at hv ⊢
        split at hv
        · rename_i hp
          have hv' : upd s.fut w.id (.result o) v ≠ s.fut v := hv
          by_cases h : v = w.id
          · subst h
            exact ⟨rfl, hp, upd_same _ _ _⟩
          · rw [upd_other _ _ h] at hv'; exact absurd rfl hv'
        · exact absurd rfl hv
      dsimp only
      split
      · refine ⟨fun x hx hn => ⟨w, List.mem_cons_self, e1 x hx hn, ha⟩, fun v hv => ?_⟩
        obtain ⟨h1, h2, h3⟩ := e2 v hv
        exact ⟨w, List.mem_cons_self, h1, ha, h2, h3⟩
      · have ih := matchLoop_effect o ws ((s.pop w.id).setResult w.id o)
        refine ⟨fun x hx hn => ?_, fun v hv => ?_⟩
        · by_cases hx' : x ∈ ((s.pop w.id).setResult w.id o).waiters
          · obtain ⟨y, hy, h⟩ := ih.1 x hx' hn
            exact ⟨y, List.mem_cons_of_mem _ hy, h⟩
          · exact ⟨w, List.mem_cons_self, e1 x hx hx', ha⟩
        · by_cases hv' : ((s.pop w.id).setResult w.id o).fut v = s.fut v
          · obtain ⟨y, hy, h1, h2, h3, h4⟩ := ih.2 v (by rw [hv']; exact hv)
            exact ⟨y, List.mem_cons_of_mem _ hy, h1, h2, by rw [← hv']; exact h3, h4⟩
          · obtain ⟨h1, h2, h3⟩ := e2 v hv'
            refine ⟨w, List.mem_cons_self, h1, ha, h2, ?_⟩
            exact (grows_matchLoop o ws _).fut v o h3

/-! ## Progress -/

theorem start_queue (s : Api) (t : Nat) (o : Obj) : (s.start t o).queue = s.queue := by
  have hp : ∀ (s : Api) t pc, (s.setPc t pc).queue = s.queue := by
    intro s t pc; unfold Api.setPc; split <;> rfl
  unfold Api.start
  split
  · exact hp s t _
  · split
    · dsimp only
      split
      · exact hp _ _ _
      · rename_i h
        rw [hp, (uartSend_fields h).2.1]; rfl
    · split
      · split
        · exact hp s t _
        · rename_i h; show Api.queue (Api.setPc _ _ _) = _; rw [hp, (uartSend_fields h).2.1]
      · exact hp s t _

theorem grant_queue {s : Api} (i : Inv s) (hh : s.holder = none) {t : Nat} {q : List Nat}
    (hq : s.queue = t :: q) : s.grant.queue = q := by
  obtain ⟨k, hk, _⟩ := (i.lock.qIff t).mp (by rw [hq]; exact List.mem_cons_self)
  unfold Api.grant
  rw [hh, hq]
  dsimp only
  rw [hk]
  dsimp only
  rw [start_queue, setPc_eq (s := { s with holder := some t, queue := q }) hk]

theorem timeout_step {s : Api} {t w d : Nat} {k : Task} (hk : s.tasks t = some k)
    (hp : k.pc = .waiting w d) (hf : s.fut w = .pending) (hd : d ≤ s.now) :
    s.step (.timeout t) = { s.finish t (.error .timeoutError) with fut := upd s.fut w .cancelled } := by
  rw [Api.step, hk]
  dsimp only
  rw [hp]
  dsimp only
  rw [if_pos ⟨hf, hd⟩]

/-- Whoever holds the lock can be finished by waiting long enough. -/
theorem release {s : Api} (i : Inv s) (hs : Settled s.tasks) {t : Nat} (hh : s.holder = some t) :
    ∃ es, (∀ e ∈ es, (∃ ms, e = .tick ms) ∨ e = .wake t ∨ e = .timeout t) ∧
      (s.run es).holder = none ∧ (s.run es).queue = s.queue := by
  obtain ⟨k, hk, ha⟩ := (i.lock.hIff t).mp hh
  rcases hp : k.pc with _ | _ | ⟨w, d⟩ | r
  · rw [hp] at ha; exact ha.elim
  · exact absurd hp (hs t k hk)
  · obtain ⟨_, _, hc, _, _⟩ := i.resp.live t k w d hk hp
    rcases hf : s.fut w with _ | o | _
    · refine ⟨[.tick d, .timeout t], ?_, ?_⟩
      · intro e he
        simp at he
        rcases he with rfl | rfl
        · exact .inl ⟨d, rfl⟩
        · exact .inr (.inr rfl)
      · have e : s.run [.tick d, .timeout t] = (s.step (.tick d)).step (.timeout t) := rfl
        rw [e, timeout_step (s := s.step (.tick d)) hk hp hf (Nat.le_add_left _ _)]
        refine ⟨rfl, ?_⟩
        show Api.queue (Api.setPc _ _ _) = _
        unfold Api.setPc; split <;> rfl
    · refine ⟨[.wake t], by simp, ?_⟩
      have fin : ∀ (s' : Api) r, s'.queue = s.queue →
          (s'.finish t r).holder = none ∧ (s'.finish t r).queue = s.queue := by
        intro s' r h
        refine ⟨rfl, ?_⟩
        show Api.queue (Api.setPc _ _ _) = _
        unfold Api.setPc; split <;> exact h
      simp only [Api.run, List.foldl, Api.step]
      rw [hk]
      dsimp only
      rw [hp]
      dsimp only
      rw [hf]
      dsimp only
      unfold Api.conclude
      split
      · split
        · exact fin s _ rfl
        · split
          · exact fin s _ rfl
          · split
            · exact fin _ _ (setResult_fields _ _ _).2.2.2.2.1
            · exact fin s _ rfl
      · exact fin s _ rfl
    · exact absurd hf hc
  · rw [hp] at ha; exact ha.elim

/-- Everything can be drained. -/
theorem drain : ∀ (n : Nat) (s : Api), Inv s → Settled s.tasks → s.queue.length ≤ n →
    ∃ es, (∀ e ∈ es, (∃ ms, e = .tick ms) ∨ (∃ t, e = .wake t) ∨ (∃ t, e = .timeout t) ∨
        e = .grant) ∧
      (s.run es).holder = none ∧ (s.run es).queue = [] := by
  intro n
  induction n with
  | zero =>
    intro s i hs hn
    have hq : s.queue = [] := List.length_eq_zero_iff.mp (by omega)
    rcases hh : s.holder with _ | t
    · exact ⟨[], by simp, hh, hq⟩
    · obtain ⟨es, h1, h2, h3⟩ := release i hs hh
      refine ⟨es, ?_, h2, h3.trans hq⟩
      intro e he
      rcases h1 e he with h | h | h
      · exact .inl h
      · exact .inr (.inl ⟨t, h⟩)
      · exact .inr (.inr (.inl ⟨t, h⟩))
  | succ n ih =>
    intro s i hs hn
    have hrel : ∃ es, (∀ e ∈ es, (∃ ms, e = .tick ms) ∨ (∃ t, e = .wake t) ∨ (∃ t, e = .timeout t) ∨
        e = .grant) ∧ (s.run es).holder = none ∧ (s.run es).queue = s.queue := by
      rcases hh : s.holder with _ | t
      · exact ⟨[], by simp, hh, rfl⟩
      · obtain ⟨es, h1, h2, h3⟩ := release i hs hh
        refine ⟨es, ?_, h2, h3⟩
        intro e he
        rcases h1 e he with h | h | h
        · exact .inl h
        · exact .inr (.inl ⟨t, h⟩)
        · exact .inr (.inr (.inl ⟨t, h⟩))
    obtain ⟨es, h1, h2, h3⟩ := hrel
    rcases hq : s.queue with _ | ⟨t, q⟩
    · exact ⟨es, h1, h2, h3.trans hq⟩
    · have i' := inv_run_from i es
      have hs' := settled_run hs es
      have hg := grant_queue i' h2 (h3.trans hq)
      have hlen : ((s.run es).step .grant).queue.length ≤ n := by
        show (s.run es).grant.queue.length ≤ n
        rw [hg]; rw [hq] at hn; simpa using hn
      obtain ⟨es', h4, h5, h6⟩ := ih _ (i'.step .grant) (settled_step hs' .grant) hlen
      refine ⟨es ++ .grant :: es', ?_, ?_⟩
      · intro e he
        rcases List.mem_append.mp he with he | he
        · exact h1 e he
        · rcases List.mem_cons.mp he with rfl | he
          · exact .inr (.inr (.inr rfl))
          · exact h4 e he
      · rw [run_append]
        exact ⟨h5, h6⟩

end Zcc
