import Verif.Props.Devices.Interchange
import Verif.Props.Devices.Displays
import Verif.Props.Devices.FileBacked
import Verif.Props.Devices.Keyboards
import Verif.Props.Devices.Clock
import Verif.Props.Hardware

/-!
# A reset machine runs as on its first boot: C107. A reset component is as new: C108.
-/

namespace Lrvm

open Spec

variable {D : Type} [Bus D] {pf : Profile}

theorem answersAfter_of {d d' : D} {rs rs' : List Req} {as : List Answer} (h : serveAll d rs = some (d', as)) :
    answersAfter d rs rs' = (serveAll d' rs').map (·.2) := by
  unfold answersAfter; rw [h]; rfl

/-- A component reached within its contract. -/
def Reached (ds : List D) (sz : Nat → Nat) (i : Nat) (d : D) : Prop :=
  ∃ d0 rs as, ds[i]? = some d0 ∧ (∀ r ∈ rs, r.Within (sz i)) ∧ serveAll d0 rs = some (d, as)

theorem within_snoc {rs : List Req} {q : Req} {n : Nat} (h : ∀ r ∈ rs, r.Within n) (hq : q.Within n) :
    ∀ r ∈ rs ++ [q], r.Within n := by
  intro r hr
  rcases List.mem_append.mp hr with hr | hr
  · exact h r hr
  · rw [List.mem_singleton] at hr; subst hr; exact hq

theorem Reached.step {ds : List D} {sz : Nat → Nat} {i : Nat} {d d' : D} (h : Reached ds sz i d) {q : Req} {an : Answer}
    (hq : q.Within (sz i)) (hs : serve d q = some (d', an)) : Reached ds sz i d' := by
  obtain ⟨d0, rs, as, h1, h2, h3⟩ := h
  exact ⟨d0, rs ++ [q], as ++ [an], h1, within_snoc h2 hq, by rw [serveAll_snoc h3, hs]; rfl⟩

theorem reached_devInv {ds : List D} {sz : Nat → Nat} {cache : List AuxCache}
    (hc : ∀ i a, InRange cache i a → a.toNat % 4 = 0 ∧ a.toNat < sz i) : DevInv (Reached ds sz) cache where
  read := fun {id d a ex d' w ex'} h ha hr => h.step (q := .read a ex) (hc id a ha) (by simp only [serve, hr]; rfl)
  write := fun {id d a w ex d' ex'} h ha hr => h.step (q := .write a w ex) (hc id a ha) (by simp only [serve, hr]; rfl)
  reset := fun {id d d'} h hr => h.step (q := .reset) trivial (by simp only [serve, hr]; rfl)

/-- Two machines went through the same requests since `s` and `t`. -/
def Since (s t : Machine D) (sz : Nat → Nat) (i : Nat) (d e : D) : Prop :=
  ∃ d0 e0 rs as, s.devs[i]? = some d0 ∧ t.devs[i]? = some e0 ∧ (∀ r ∈ rs, r.Within (sz i)) ∧
    serveAll d0 (.reset :: rs) = some (d, as) ∧ serveAll e0 (.reset :: rs) = some (e, as)

theorem since_step {s t : Machine D} {sz : Nat → Nat}
    (h : ∀ (i : Nat) (d e : D), s.devs[i]? = some d → t.devs[i]? = some e → ∀ rs, (∀ r ∈ rs, r.Within (sz i)) →
      (serveAll d (.reset :: rs)).map (·.2) = (serveAll e (.reset :: rs)).map (·.2)) {i : Nat} {d e : D}
    (ht : Since s t sz i d e) {q : Req} (hq : q.Within (sz i)) :
    resAlike (fun x y => Since s t sz i x.1 y.1 ∧ x.2 = y.2) (serve d q) (serve e q) := by
  obtain ⟨d0, e0, rs, as, h1, h2, h3, h4, h5⟩ := ht
  have hall := within_snoc h3 hq
  have hs := serve_same h4 h5 q (h i d0 e0 h1 h2 _ hall)
  cases g1 : serve d q with
  | none => rw [g1] at hs; cases g2 : serve e q with
    | none => trivial
    | some p => rw [g2] at hs; exact hs
  | some p => rw [g1] at hs; cases g2 : serve e q with
    | none => rw [g2] at hs; exact hs
    | some p' =>
      rw [g2] at hs
      have hpp : p.2 = p'.2 := hs
      refine ⟨⟨d0, e0, rs ++ [q], as ++ [p.2], h1, h2, hall, ?_, ?_⟩, hs⟩
      · have := serveAll_snoc h4 q
        rw [g1] at this; exact this
      · have := serveAll_snoc h5 q
        rw [g2] at this; rw [hpp]; exact this

theorem reset_reboots {d0 d : D} {size : Nat} (hb : Reboots d0 size) {rs as} (hw : ∀ r ∈ rs, r.Within size)
    (h : serveAll d0 rs = some (d, as)) {rs' : List Req} (hw' : ∀ r ∈ rs', r.Within size) :
    (serveAll d (.reset :: rs')).map (·.2) = (serveAll d0 (.reset :: rs')).map (·.2) := by
  have hr := hb rs rs' hw hw' (by rw [h]; exact fun h => by cases h)
  unfold answersAfter at hr
  rw [serveAll_snoc h] at hr
  simp only [serveAll, Option.bind_eq_bind]
  have key : ∀ (x : Res (D × Answer)) (y : Res (D × Answer)), (∀ p, x = some p → p.2 = .done) → (∀ p, y = some p → p.2 = .done) →
      ((x.map fun x => (x.1, as ++ [x.2])).bind fun p => (serveAll p.1 rs').map (·.2)) =
        ((y.bind fun p => (some (p.1, [p.2]) : Res (D × List Answer))).bind fun p => (serveAll p.1 rs').map (·.2)) →
      (x.bind fun p => (serveAll p.1 rs').bind fun q => some (q.1, p.2 :: q.2)).map (·.2) =
        (y.bind fun p => (serveAll p.1 rs').bind fun q => some (q.1, p.2 :: q.2)).map (·.2) := by
    intro x y hx hy hxy
    cases x with
    | none => cases y with
      | none => rfl
      | some q =>
        simp only [Option.map_none, Option.bind_none, Option.bind_some] at hxy ⊢
        cases hq : serveAll q.1 rs' with
        | none => rfl
        | some z => rw [hq] at hxy; cases hxy
    | some p => cases y with
      | none =>
        simp only [Option.map_some, Option.bind_none, Option.bind_some] at hxy ⊢
        cases hq : serveAll p.1 rs' with
        | none => rfl
        | some z => rw [hq] at hxy; cases hxy
      | some q =>
        simp only [Option.map_some, Option.bind_some] at hxy ⊢
        cases hq : serveAll q.1 rs' with
        | none =>
          rw [hq] at hxy
          cases hp : serveAll p.1 rs' with
          | none => rfl
          | some z => rw [hp] at hxy; cases hxy
        | some z =>
          rw [hq] at hxy
          cases hp : serveAll p.1 rs' with
          | none => rw [hp] at hxy; cases hxy
          | some z' =>
            rw [hp] at hxy
            simp only [Option.map_some, Option.some.injEq] at hxy
            simp only [Option.bind_some, Option.map_some, hxy, hx p rfl, hy q rfl]
  have done : ∀ (d : D) p, serve d .reset = some p → p.2 = .done := by
    intro d p hp
    obtain ⟨_, _, rfl⟩ := Option.map_eq_some_iff.mp hp
    rfl
  refine key _ _ (done d) (done d0) (hr.trans ?_)
  simp only [serveAll, Option.bind_eq_bind]
  rfl

/-- **C107**. On a board whose components, once reset, all answer as if they had been reset when new: whatever the host and the
programs did since the components were mapped, resetting the board and going on leaves, call by call, the same registers,
mappings, cycles and state of the CPU, and the same answers to direct reads, as resetting it at once (the first boot) and
going on; and the components receive the very same requests, with the same answers. -/
theorem C107 {ds : List D} {s0 s1 s2 : Machine D} {setup ops2 : List HostOp} (hnew : newBoard pf ds = some s0)
    (hb : ∀ d ∈ ds, ∀ md, Bus.metadata pf d = some md → Reboots d md[2].toNat)
    (h1 : hostRun pf setup s0 = some s1) (h2 : hostRun pf ops2 s1 = some s2) (hm : s2.mappings = s1.mappings)
    (ops : List HostOp) :
    SameOutcome pf (hostRun pf (.reset :: ops) s1) (hostRun pf (.reset :: ops) s2) ∧
    ∀ t1 t2, hostRun pf (.reset :: ops) s1 = some t1 → hostRun pf (.reset :: ops) s2 = some t2 →
      SameRequests s1 s2 t1 t2 := by
  obtain ⟨hc, hh, hd, hm0, _⟩ := newBoard_inv hnew
  obtain ⟨hcl, hg⟩ := createCaches_get hc
  let sz : Nat → Nat := fun i => match ds[i]? with
    | some d => match Bus.metadata pf d with
      | some md => md[2].toNat
      | none => 0
    | none => 0
  have hsz : ∀ (i : Nat) (d : D) (md : Metadata), ds[i]? = some d → Bus.metadata pf d = some md → sz i = md[2].toNat := by
    intro i d md h1 h2
    simp only [sz, h1, h2]
  have hrange : ∀ i a, InRange s0.memCache i a → a.toNat % 4 = 0 ∧ a.toNat < sz i := by
    rintro i a ⟨h4, c, hci, hlt⟩
    have hi : i < ds.length := hcl ▸ (List.getElem?_eq_some_iff.mp hci).1
    obtain ⟨c', md, hc', hmd, _, hs, _⟩ := hg i ds[i] (List.getElem?_eq_getElem hi)
    rw [hci] at hc'; cases hc'
    rw [hsz i _ md (List.getElem?_eq_getElem hi) hmd, ← hs]
    exact ⟨h4, hlt⟩
  have hinv : DevInv (Reached ds sz) s0.memCache := reached_devInv hrange
  have hr0 : AllDev (Reached ds sz) s0.devs := fun i d hi => ⟨d, [], [], hd ▸ hi, by simp, rfl⟩
  obtain ⟨hc1, hp1, hr1⟩ := hostRun_devInv hinv (by rw [hm0]; intro m hm; cases hm) hr0 h1
  obtain ⟨hc2, hp2, hr2⟩ := hostRun_devInv (hc1 ▸ hinv) (by rw [hc1]; exact hp1) hr1 h2
  obtain ⟨l1, w1, _⟩ := hostRun_keeps h1
  obtain ⟨l2, w2, _⟩ := hostRun_keeps h2
  have hreb : ∀ (i : Nat) (d e : D), s1.devs[i]? = some d → s2.devs[i]? = some e → ∀ rs, (∀ r ∈ rs, r.Within (sz i)) →
      (serveAll d (.reset :: rs)).map (·.2) = (serveAll e (.reset :: rs)).map (·.2) := by
    intro i d e hd he rs hw
    obtain ⟨d0, rd, ad, g1, g2, g3⟩ := hr1 i d hd
    obtain ⟨e0, re, ae, k1, k2, k3⟩ := hr2 i e he
    rw [g1] at k1; cases k1
    obtain ⟨c, md, _, hmd, _⟩ := hg i d0 g1
    have hbd := hb d0 (List.mem_of_getElem? g1) md hmd
    rw [← hsz i d0 md g1 hmd] at hbd
    exact (reset_reboots hbd g2 g3 hw).trans (reset_reboots hbd k2 k3 hw).symm
  have hi : DevAlike (Since s1 s2 sz) s0.memCache :=
    devAlike_of_serve fun {i d e q} hr hq => since_step hreb hr (by
      cases q with
      | read a ex => exact hrange i a (hq a (.inl ⟨ex, rfl⟩))
      | write a w ex => exact hrange i a (hq a (.inr ⟨w, ex, rfl⟩))
      | reset => trivial)
  have hreset : resAlike (Alike (Since s1 s2 sz) s0.memCache) (boardReset s1) (boardReset s2) := by
    refine resAlike_bind (Q := DevsAlike (Since s1 s2 sz)) ?_ ?_
    · refine resetAll_rel (R := fun i d e => s1.devs[i]? = some d ∧ s2.devs[i]? = some e) ?_ ⟨l2.symm, fun i d e hd he => ⟨hd, he⟩⟩
      rintro i d e ⟨hd, he⟩
      have := hreb i d e hd he [] (by simp)
      cases x : Bus.reset d with
      | none =>
        cases y : Bus.reset e with
        | none => trivial
        | some e' => simp [serveAll, serve, x, y] at this
      | some d' =>
        cases y : Bus.reset e with
        | none => simp [serveAll, serve, x, y] at this
        | some e' =>
          exact ⟨d, e, [], [.done], hd, he, by simp, by simp [serveAll, serve, x], by simp [serveAll, serve, y]⟩
    · intro xs ys hx
      refine ⟨rfl, w2.symm, hc1, hc2.trans hc1, hm.symm, rfl, rfl, rfl, ?_, hx⟩
      show Placed s0.memCache s1.mappings
      exact hp1
  have hall : resAlike (Alike (Since s1 s2 sz) s0.memCache) (hostRun pf (.reset :: ops) s1) (hostRun pf (.reset :: ops) s2) :=
    resAlike_bind hreset fun _ _ h => hostRun_alike hi ops h
  refine ⟨outcome_of_alike hi hall, fun t1 t2 e1 e2 => ?_⟩
  rw [e1, e2] at hall
  intro i d e hd he
  obtain ⟨d0, e0, rs, as, g1, g2, _, g4, g5⟩ := hall.devs.2 i d e hd he
  exact ⟨d0, e0, _, as, g1, g2, g4, g5⟩

/-- A host run without mapping calls keeps the mappings. -/
theorem hostRun_unmapped {s s' : Machine D} {ops : List HostOp} (hn : ∀ op ∈ ops, ¬ MapsSomething op)
    (h : hostRun pf ops s = some s') : s'.mappings = s.mappings := by
  refine hostRun_inv (P := fun t => t.mappings = s.mappings) h rfl ?_
  intro op hop t u ht hs
  have hno := hn op hop
  cases op with
  | next => exact (C38_step_keeps_hardware hs).2.1.trans ht
  | cpuReset => injection hs with hs; rw [← hs]; exact ht
  | reset => exact (C05_reset hs).2.2.2.1.trans ht
  | map a i => exact absurd trivial hno
  | mapAbs a e i => exact absurd trivial hno
  | mapContiguous a is => exact absurd trivial hno
  | memRead a ex =>
    simp only [hostStep, Option.map_eq_some_iff] at hs
    obtain ⟨⟨w, e, t⟩, hm, rfl⟩ := hs
    rw [memRead_frame hm]; exact ht
  | memWrite a w ex =>
    simp only [hostStep, Option.map_eq_some_iff] at hs
    obtain ⟨⟨e, t⟩, hm, rfl⟩ := hs
    rw [memWrite_frame hm]; exact ht
  | setRegs f => injection hs with hs; rw [← hs]; exact ht

/-- **C107** for a host that maps nothing after the setup. -/
theorem C107_unmapped {ds : List D} {s0 s1 s2 : Machine D} {setup ops2 : List HostOp} (hnew : newBoard pf ds = some s0)
    (hb : ∀ d ∈ ds, ∀ md, Bus.metadata pf d = some md → Reboots d md[2].toNat)
    (h1 : hostRun pf setup s0 = some s1) (h2 : hostRun pf ops2 s1 = some s2) (hn : ∀ op ∈ ops2, ¬ MapsSomething op)
    (ops : List HostOp) : SameOutcome pf (hostRun pf (.reset :: ops) s1) (hostRun pf (.reset :: ops) s2) :=
  (C107 hnew hb h1 h2 (hostRun_unmapped hn h2) ops).1

/-! ## Components that restore -/

theorem Spec.Restores.reboots {d : D} {size : Nat} (h : Restores d size) : Reboots d size := by
  intro rs rs' h1 h2 h3
  rw [h rs rs' h1 h2 h3, ← h [] rs' (by simp) h2 (by simp [serveAll])]
  rfl

/-- Answers, and what is added to the output, depend only on `key`. -/
structure Keyed (key : D → κ) (out : D → List α) (size : Nat) : Prop where
  step : ∀ d e q, q.Within size → key d = key e → resAlike (fun x y => key x.1 = key y.1 ∧ x.2 = y.2 ∧
    ∃ new, out x.1 = out d ++ new ∧ out y.1 = out e ++ new) (serve d q) (serve e q)

theorem Keyed.all {key : D → κ} {out : D → List α} {size : Nat} (hk : Keyed key out size) {rs : List Req} :
    ∀ {d e : D}, (∀ r ∈ rs, r.Within size) → key d = key e →
    resAlike (fun x y => key x.1 = key y.1 ∧ x.2 = y.2 ∧ ∃ new, out x.1 = out d ++ new ∧ out y.1 = out e ++ new)
      (serveAll d rs) (serveAll e rs) := by
  induction rs with
  | nil => intro d e _ he; exact ⟨he, rfl, [], by simp, by simp⟩
  | cons q rs ih =>
    intro d e hw he
    refine resAlike_bind (hk.step d e q (hw q List.mem_cons_self) he) ?_
    rintro ⟨d', a⟩ ⟨e', a'⟩ ⟨h1, h2, new, h3, h4⟩
    cases h2
    refine resAlike_bind (ih (fun r h => hw r (List.mem_cons_of_mem _ h)) h1) ?_
    rintro ⟨d'', a⟩ ⟨e'', a'⟩ ⟨g1, g2, new', g3, g4⟩
    cases g2
    exact ⟨g1, rfl, new ++ new', by rw [g3, h3, List.append_assoc], by rw [g4, h4, List.append_assoc]⟩

theorem Keyed.same {key : D → κ} {out : D → List α} {size : Nat} (hk : Keyed key out size) {d e : D} (he : key d = key e) :
    SameAnswers d e size := by
  intro rs hw
  have := hk.all hw he
  cases h1 : serveAll d rs <;> cases h2 : serveAll e rs <;> rw [h1, h2] at this
  · exact this.elim
  · exact this.elim
  · exact congrArg some this.2.1

theorem Keyed.restores {key : D → κ} {out : D → List α} {size : Nat} (hk : Keyed key out size) {d : D}
    (hr : ∀ rs d' as, (∀ r ∈ rs, r.Within size) → serveAll d rs = some (d', as) →
      ∃ d'', Bus.reset d' = some d'' ∧ key d'' = key d) : Restores d size := by
  intro rs rs' h1 h2 h3
  cases h : serveAll d rs with
  | none => exact absurd h h3
  | some p =>
    obtain ⟨d', as⟩ := p
    obtain ⟨d'', h4, h5⟩ := hr rs d' as h1 h
    have h6 : serveAll d (rs ++ [.reset]) = some (d'', as ++ [.done]) := by
      rw [serveAll_snoc h]; simp only [serve, h4]; rfl
    rw [answersAfter_of h6, answersAfter_of (serveAll_nil d)]
    exact hk.same h5 rs' h2

theorem Keyed.repaints {key : D → κ} {out : D → List α} {size : Nat} (hk : Keyed key out size) {d : D}
    (hr : ∀ rs d' as, (∀ r ∈ rs, r.Within size) → serveAll d rs = some (d', as) →
      ∃ d'', Bus.reset d' = some d'' ∧ key d'' = key d ∧ out d'' = out d') : Repaints out d size := by
  intro rs₁ rs₂ rs d₁ d₂ d₁' d₂' as₁ as₂ bs₁ bs₂ w1 w2 w3 h1 h2 h3 h4
  obtain ⟨x, x1, x2, x3⟩ := hr rs₁ d₁ as₁ w1 h1
  obtain ⟨y, y1, y2, y3⟩ := hr rs₂ d₂ as₂ w2 h2
  have := hk.all (d := x) (e := y) (rs := rs) w3 (x2.trans y2.symm)
  simp only [serveAll, serve, x1, Option.map_some, Option.bind_eq_bind, Option.bind_some, Option.bind_eq_some_iff,
    Option.some.injEq] at h3
  simp only [serveAll, serve, y1, Option.map_some, Option.bind_eq_bind, Option.bind_some, Option.bind_eq_some_iff,
    Option.some.injEq] at h4
  obtain ⟨p, hp, hp'⟩ := h3
  obtain ⟨q, hq, hq'⟩ := h4
  cases hp'; cases hq'
  rw [hp, hq] at this
  obtain ⟨_, _, new, g1, g2⟩ := this
  exact ⟨new, by rw [g1, x3], by rw [g2, y3]⟩

/-! ### Displays -/

theorem display_keyed (size : Nat) : Keyed (fun d : BufferedDisplay => (d.buffer, d.words)) BufferedDisplay.calls size where
  step := by
    rintro ⟨b, w, h, c⟩ ⟨b', w', h', c'⟩ q - he
    cases he
    cases q with
    | read a ex => exact ⟨rfl, rfl, [], by simp, by simp⟩
    | reset => exact ⟨rfl, rfl, [], by simp [BufferedDisplay.clear], by simp [BufferedDisplay.clear]⟩
    | write a v ex =>
      show resAlike _ ((BufferedDisplay.write _ a v ex).map _) ((BufferedDisplay.write _ a v ex).map _)
      simp only [BufferedDisplay.write]
      split
      · split
        · exact ⟨rfl, rfl, [], by simp, by simp⟩
        · trivial
      · split
        · exact ⟨rfl, rfl, [_], rfl, rfl⟩
        · exact ⟨rfl, rfl, [_], rfl, rfl⟩
        · exact ⟨rfl, rfl, [], by simp [BufferedDisplay.clear], by simp [BufferedDisplay.clear]⟩
        · exact ⟨rfl, rfl, [], by simp, by simp⟩

theorem char_keyed (size : Nat) : Keyed (fun _ : CharDisplay => ()) CharDisplay.calls size where
  step := by
    intro d e q _ _
    cases q with
    | read a ex => exact ⟨rfl, rfl, [], by simp, by simp⟩
    | reset => exact ⟨rfl, rfl, [], by simp, by simp⟩
    | write a v ex => exact ⟨rfl, rfl, [_], rfl, rfl⟩

theorem number_keyed (size : Nat) : Keyed (fun _ : NumberDisplay => ()) NumberDisplay.calls size where
  step := by
    intro d e q _ _
    cases q with
    | read a ex => exact ⟨rfl, rfl, [], by simp, by simp⟩
    | reset => exact ⟨rfl, rfl, [], by simp, by simp⟩
    | write a v ex =>
      show resAlike _ ((NumberDisplay.write d a v ex).map _) ((NumberDisplay.write e a v ex).map _)
      simp only [NumberDisplay.write]
      cases NumberFormat.of (a % 16).toNat with
      | none => trivial
      | some f => exact ⟨trivial, rfl, [_], rfl, rfl⟩

theorem debug_keyed (size : Nat) : Keyed (fun _ : BasicDebug => ()) BasicDebug.calls size where
  step := by
    intro d e q _ _
    cases q with
    | read a ex => exact ⟨rfl, rfl, [], by simp, by simp⟩
    | reset => exact ⟨rfl, rfl, [], by simp, by simp⟩
    | write a v ex =>
      simp only [serve, Bus.write]
      cases DebugInfo.of (a / 4).toNat v with
      | none => trivial
      | some f => exact ⟨trivial, rfl, [_], rfl, rfl⟩

theorem display_size {d d' : BufferedDisplay} {rs : List Req} {as : List Answer} (h : serveAll d rs = some (d', as)) :
    d'.buffer.length = d.buffer.length ∧ d'.words = d.words := by
  refine serveAll_pres (I := fun x : BufferedDisplay => x.buffer.length = d.buffer.length ∧ x.words = d.words) ?_ h ⟨rfl, rfl⟩
  intro x r y a hx hs
  cases r with
  | read b ex => cases hs; exact hx
  | reset => cases hs; exact ⟨by simp [BufferedDisplay.clear, hx.1], hx.2⟩
  | write b w ex =>
    simp only [serve, Option.map_eq_some_iff] at hs
    obtain ⟨⟨z, ex'⟩, h1, h2⟩ := hs
    cases h2
    have h1 : BufferedDisplay.write x b w ex = some (z, ex') := h1
    simp only [BufferedDisplay.write] at h1
    by_cases hlt : b / 4 < x.words
    · rw [if_pos hlt] at h1
      split at h1
      · cases h1; exact ⟨by simp [hx.1], hx.2⟩
      · cases h1
    · rw [if_neg hlt] at h1
      split at h1
      · cases h1; exact hx
      · cases h1; exact hx
      · cases h1; exact ⟨by simp [BufferedDisplay.clear, hx.1], hx.2⟩
      · cases h1; exact hx

theorem display_blank {cap : Word} {hw : U64} {d : BufferedDisplay} (h : BufferedDisplay.new cap hw = some d) :
    d.buffer = List.replicate d.buffer.length 0 := by
  unfold BufferedDisplay.new at h
  repeat' (split at h)
  all_goals first | (cases h; done) | skip
  cases h; simp

/-- **C108**, buffered display: a reset one answers as a new one. -/
theorem C108_buffered_display {cap : Word} {hw : U64} {d : BufferedDisplay} (h : BufferedDisplay.new cap hw = some d) (size : Nat) :
    Restores d size :=
  (display_keyed size).restores fun rs d' as _ hs => ⟨d'.clear, rfl, by
    obtain ⟨h1, h2⟩ := display_size hs
    simp only [BufferedDisplay.clear, h1, h2, ← display_blank h]⟩

/-- **C107**, buffered display: what it shows after a reset does not depend on what came before. -/
theorem C107_buffered_display_shows {cap : Word} {hw : U64} {d : BufferedDisplay} (h : BufferedDisplay.new cap hw = some d)
    (size : Nat) : Repaints BufferedDisplay.calls d size :=
  (display_keyed size).repaints fun rs d' as _ hs => ⟨d'.clear, rfl, by
    obtain ⟨h1, h2⟩ := display_size hs
    simp only [BufferedDisplay.clear, h1, h2, ← display_blank h], rfl⟩

theorem C108_char_display (hw : U64) (size : Nat) : Restores (CharDisplay.new hw) size :=
  (char_keyed size).restores fun _ d' _ _ _ => ⟨d', rfl, rfl⟩

theorem C107_char_display_shows (hw : U64) (size : Nat) : Repaints CharDisplay.calls (CharDisplay.new hw) size :=
  (char_keyed size).repaints fun _ d' _ _ _ => ⟨d', rfl, rfl, rfl⟩

theorem C108_number_display (hw : U64) (size : Nat) : Restores (NumberDisplay.new hw) size :=
  (number_keyed size).restores fun _ d' _ _ _ => ⟨d', rfl, rfl⟩

theorem C107_number_display_shows (hw : U64) (size : Nat) : Repaints NumberDisplay.calls (NumberDisplay.new hw) size :=
  (number_keyed size).repaints fun _ d' _ _ _ => ⟨d', rfl, rfl, rfl⟩

theorem C108_basic_debug (hw : U64) (size : Nat) : Restores (BasicDebug.new hw) size :=
  (debug_keyed size).restores fun _ d' _ _ _ => ⟨d', rfl, rfl⟩

theorem C107_basic_debug_shows (hw : U64) (size : Nat) : Repaints BasicDebug.calls (BasicDebug.new hw) size :=
  (debug_keyed size).repaints fun _ d' _ _ _ => ⟨d', rfl, rfl, rfl⟩

/-- A display that was written and cleared by a reset shows the same as a new one. -/
example : ∃ d : BufferedDisplay, BufferedDisplay.new 8 7 = some d ∧
    answersAfter d [.write 0 0x41424344 0, .write 4 0xAA 0, .reset] [.write 4 0xAA 0, .write 4 1 0] = some [.wrote 0, .wrote 0x1001] ∧
    (serveAll d [.write 0 0x41424344 0, .write 4 0xAA 0, .reset, .write 4 0xAA 0]).map (fun p => p.1.calls.length) = some 2 :=
  ⟨_, rfl, by decide +kernel, by decide +kernel⟩

/-! ### Memories -/

/-- A memory that was reset is a zeroed memory. -/
theorem wordMemory_reset {d d' : D} {size : Nat} {init : Nat → Word} (hm : WordMemory pf d size init) {rs : List Req}
    {as : List Answer} (hw : ∀ r ∈ rs, r.Within size) (h : serveAll d (rs ++ [.reset]) = some (d', as)) :
    WordMemory pf d' size (fun _ => 0) := by
  have hw0 : ∀ r ∈ rs ++ [.reset], r.Within size := within_snoc hw trivial
  have app : ∀ {rs' : List Req} {x bs}, serveAll d' rs' = some (x, bs) →
      serveAll d ((rs ++ [.reset]) ++ rs') = some (x, as ++ bs) := fun h' => serveAll_append h h'
  have wapp : ∀ {rs' : List Req}, (∀ r ∈ rs', r.Within size) → ∀ r ∈ (rs ++ [.reset]) ++ rs', r.Within size := by
    intro rs' h' r hr
    rcases List.mem_append.mp hr with hr | hr
    · exact hw0 r hr
    · exact h' r hr
  refine ⟨fun rs' hr => ?_, fun rs1 rs2 a w ex ex' x bs hr hs hh => ?_, fun rs1 rs2 a ex x bs hr hs h4 hlt hh => ?_,
    fun rs2 a ex x bs hr hs h4 hlt hh => ?_⟩
  · obtain ⟨x, cs, h1, h2, h3⟩ := hm.serves _ (wapp hr)
    obtain ⟨y, as1, as2, g1, g2, rfl⟩ := serveAll_append_inv h1
    rw [h] at g1; cases g1
    refine ⟨x, as2, g2, h2, ?_⟩
    have hl := serveAll_length h
    clear h1 g2 app wapp hw0 hw h
    revert as
    generalize rs ++ [Req.reset] = l
    induction l with
    | nil => intro as h3 hl; cases as with
      | nil => exact h3
      | cons a as => exact absurd hl (by simp)
    | cons q l ih => intro as h3 hl; cases as with
      | nil => exact absurd hl (by simp)
      | cons a as => exact ih h3.2 (by simpa using hl)
  · have := hm.written ((rs ++ [.reset]) ++ rs1) rs2 a w ex ex' x _ (by rw [List.append_assoc]; exact wapp hr) hs
      (by rw [List.append_assoc]; exact app hh)
    exact this
  · exact hm.zeroed ((rs ++ [.reset]) ++ rs1) rs2 a ex x _ (by rw [List.append_assoc]; exact wapp hr) hs h4 hlt
      (by rw [List.append_assoc]; exact app hh)
  · have hr' := wapp hr
    have hh' := app hh
    rw [List.append_assoc] at hr' hh'
    exact hm.zeroed rs rs2 a ex x _ hr' hs h4 hlt hh'

/-- **C107**: every array of words reboots. -/
theorem C107_memory {d : D} {size : Nat} {init : Nat → Word} (hm : WordMemory pf d size init) : Reboots d size := by
  intro rs rs' h1 h2 _
  obtain ⟨d1, as1, g1, _⟩ := hm.serves _ (within_snoc (q := .reset) h1 trivial)
  obtain ⟨d2, as2, g2, _⟩ := hm.serves [.reset] (by intro r hr; rw [List.mem_singleton] at hr; subst hr; trivial)
  rw [answersAfter_of g1, answersAfter_of g2]
  exact C106_memory (wordMemory_reset hm h1 g1) (wordMemory_reset (rs := []) hm (by simp) g2) rs' h2

/-- **C108**, memories: an array of words is as new once reset exactly when all the words it can be asked for were zero at its
creation. -/
theorem C108_memory_partial {d : D} {size : Nat} {init : Nat → Word} (hm : WordMemory pf d size init) :
    Restores d size ↔ ∀ i, i * 4 < size → i * 4 < 2 ^ 32 → init i = 0 := by
  constructor
  · intro hr i hi hlt
    have ha : (BitVec.ofNat 32 (i * 4)).toNat = i * 4 := ofNat_toNat_lt hlt
    have hw : ∀ r ∈ [Req.read (BitVec.ofNat 32 (i * 4)) 0], r.Within size := by
      intro r hr; rw [List.mem_singleton] at hr; subst hr
      exact ⟨by rw [ha]; omega, by rw [ha]; exact hi⟩
    have := hr [] _ (by simp) hw (by simp [serveAll])
    obtain ⟨d1, as1, g1, _⟩ := hm.serves [.reset] (by intro r hr; rw [List.mem_singleton] at hr; subst hr; trivial)
    rw [List.nil_append, answersAfter_of g1, answersAfter_of (serveAll_nil d)] at this
    have h1 := hm.zeroed [] [] (BitVec.ofNat 32 (i * 4)) 0 d1 as1
      (by intro r hr; rw [List.nil_append, List.mem_singleton] at hr; subst hr; trivial) (by simp) (by rw [ha]; omega) (by rw [ha]; exact hi) g1
    have h2 := hm.initial [] (BitVec.ofNat 32 (i * 4)) 0 d [] (by simp) (by simp) (by rw [ha]; omega) (by rw [ha]; exact hi) rfl
    simp only [serveAll, serve, h1, h2, Option.map_some, Option.bind_eq_bind, Option.bind_some, Option.some.injEq,
      List.cons.injEq, Answer.value.injEq, and_true] at this
    rw [ha, Nat.mul_div_cancel _ (by decide)] at this
    exact this.symm
  · intro hz rs rs' h1 h2 _
    obtain ⟨d1, as1, g1, _⟩ := hm.serves _ (within_snoc (q := .reset) h1 trivial)
    rw [answersAfter_of g1, answersAfter_of (serveAll_nil d)]
    have hm' : WordMemory pf d size (fun i => if i * 4 < 2 ^ 32 then 0 else init i) := by
      refine WordMemory.congr hm fun i hi => ?_
      split
      · next h => exact hz i hi h
      · rfl
    have hm1 : WordMemory pf d1 size (fun i => if i * 4 < 2 ^ 32 then 0 else init i) := by
      have hr := wordMemory_reset hm h1 g1
      refine ⟨hr.serves, hr.written, hr.zeroed, fun rs a ex d' as e1 e2 e3 e4 e5 => ?_⟩
      rw [if_pos (by have := a.isLt; omega)]
      exact hr.initial rs a ex d' as e1 e2 e3 e4 e5
    exact C106_memory hm1 hm' rs' h2

/-- **C108** fails for memories created with a content: `Ram::from` and `PersistentMem::from` of a non-zero word. -/
theorem C108_memory_refuted : (∃ d : Ram, Ram.from [7, 0, 0, 0] 1 = some d ∧ ¬ Restores d 4) ∧
    ∃ d : PersistentMem, PersistentMem.from [7, 0, 0, 0] 1 = some d ∧ ¬ Restores d 4 := by
  constructor
  · obtain ⟨d, hd⟩ : ∃ d : Ram, Ram.from [7, 0, 0, 0] 1 = some d := ⟨_, rfl⟩
    have hm : WordMemory .debug d 4 _ := C64_from hd
    refine ⟨d, hd, fun h => ?_⟩
    have := (C108_memory_partial hm).mp h 0 (by decide) (by decide)
    exact absurd this (by decide)
  · obtain ⟨d, hd⟩ : ∃ d : PersistentMem, PersistentMem.from [7, 0, 0, 0] 1 = some d := ⟨_, rfl⟩
    have hm : WordMemory .debug d 4 _ := C66_from_partial hd
    refine ⟨d, hd, fun h => ?_⟩
    have := (C108_memory_partial hm).mp h 0 (by decide) (by decide)
    exact absurd this (by decide)

/-- **C108**, `Ram::new` and `PersistentMem::new`. -/
theorem C108_ram {size : Word} {hw : U64} {d : Ram} (h : Ram.new size hw = some d) : Restores d size.toNat :=
  (C108_memory_partial (C64_new (pf := .debug) h)).mpr fun _ _ _ => rfl

theorem C108_persistent {size : Word} {hw : U64} {d : PersistentMem} (h : PersistentMem.new size hw = some d) :
    Restores d size.toNat :=
  (C108_memory_partial (C66_new_partial (pf := .debug) h)).mpr fun _ _ _ => rfl

/-- **C108**, boot ROM. -/
theorem C108_bootrom {rom : BootRom} {prog : List Word} (hb : BuiltWith rom prog) (size : Nat) : Restores rom size := by
  intro rs rs' _ _ _
  obtain ⟨as, h⟩ := C65_serves hb (rs ++ [.reset])
  rw [answersAfter_of h, answersAfter_of (serveAll_nil rom)]

/-- **C108** fails for a file-backed memory: a reset keeps what was written (here a file of four bytes). -/
theorem C108_file_refuted : ∃ d : FileBackedMem, FileBackedMem.openWritable [0, 0, 0, 0] (fun _ => false) 1 = some d ∧
    ¬ Reboots d 4 ∧ ¬ Restores d 4 := by
  have key : ∃ d : FileBackedMem, FileBackedMem.openWritable [0, 0, 0, 0] (fun _ => false) 1 = some d ∧ ¬ Reboots d 4 := by
    refine ⟨_, rfl, fun h => ?_⟩
    have := h [.write 0 7 0] [.read 0 0] (by intro r hr; rw [List.mem_singleton] at hr; subst hr; exact ⟨rfl, by decide⟩)
      (by intro r hr; rw [List.mem_singleton] at hr; subst hr; exact ⟨rfl, by decide⟩) (fun h => by cases h)
    exact absurd this (by decide +kernel)
  obtain ⟨d, h1, h2⟩ := key
  exact ⟨d, h1, h2, fun h => h2 h.reboots⟩

/-! ### Keyboards and clock: as new, with what remains of their input -/

theorem char_keyboard_keyed (size : Nat) : Keyed (fun d : SyncCharKeyboard => (d.buffer, fun n => d.input (d.asked + n)))
    (fun _ => ([] : List Unit)) size where
  step := by
    rintro ⟨b, f, n, h⟩ ⟨b', f', n', h'⟩ q - he
    simp only [Prod.mk.injEq] at he
    obtain ⟨rfl, hf⟩ := he
    have hn : ∀ k, f (n + k) = f' (n' + k) := fun k => congrFun hf k
    have out : ∃ new : List Unit, ([] : List Unit) = [] ++ new ∧ ([] : List Unit) = [] ++ new := ⟨[], rfl, rfl⟩
    cases q with
    | read a ex =>
      show resAlike _ ((SyncCharKeyboard.read _ a ex).map _) ((SyncCharKeyboard.read _ a ex).map _)
      simp only [SyncCharKeyboard.read]
      split
      · exact ⟨by simp only [hf], rfl, out⟩
      · split
        · exact ⟨by simp only [hf], rfl, out⟩
        · trivial
    | reset => exact ⟨by simp only [hf], rfl, out⟩
    | write a v ex =>
      show resAlike _ ((SyncCharKeyboard.write _ a v ex).map _) ((SyncCharKeyboard.write _ a v ex).map _)
      simp only [SyncCharKeyboard.write]
      split
      · exact ⟨by simp only [hf], rfl, out⟩
      · split
        · split
          · refine ⟨Prod.ext (hn 0) (funext fun k => ?_), rfl, out⟩
            show f (n + 1 + k) = f' (n' + 1 + k)
            rw [Nat.add_assoc, Nat.add_assoc]; exact hn _
          · exact ⟨by simp only [hf], rfl, out⟩
          · exact ⟨by simp only [hf], rfl, out⟩
        · trivial

theorem char_keyboard_asked {d d' : SyncCharKeyboard} {rs : List Req} {as : List Answer} (h : serveAll d rs = some (d', as)) :
    d'.input = d.input ∧ d'.asked = d.asked + rs.countP (isAsk 4 1) := by
  induction rs generalizing d as with
  | nil => cases h; exact ⟨rfl, rfl⟩
  | cons r rs ih =>
    obtain ⟨x, a, bs, h1, h2, rfl⟩ := serveAll_cons_inv h
    obtain ⟨g1, g2⟩ := ih h2
    have key : x.input = d.input ∧ x.asked = d.asked + (if isAsk 4 1 r then 1 else 0) := by
      cases r with
      | read b ex =>
        simp only [serve, Option.map_eq_some_iff] at h1
        obtain ⟨⟨z, w, ex'⟩, h1, h3⟩ := h1
        cases h3
        have h1 : SyncCharKeyboard.read d b ex = some (z, w, ex') := h1
        unfold SyncCharKeyboard.read at h1
        repeat' (split at h1)
        all_goals first | (cases h1; done) | (cases h1; exact ⟨rfl, rfl⟩)
      | reset => cases h1; exact ⟨rfl, rfl⟩
      | write b w ex =>
        simp only [serve, Option.map_eq_some_iff] at h1
        obtain ⟨⟨z, ex'⟩, h1, h3⟩ := h1
        cases h3
        have h1 : SyncCharKeyboard.write d b w ex = some (z, ex') := h1
        unfold SyncCharKeyboard.write at h1
        by_cases hb0 : b = 0
        · rw [if_pos hb0] at h1
          cases h1
          exact ⟨rfl, by simp [isAsk, hb0]⟩
        rw [if_neg hb0] at h1
        by_cases hb : b = 4
        · rw [if_pos hb] at h1
          split at h1
          · next hw => cases h1; exact ⟨rfl, by simp [isAsk, hb, hw]⟩
          · next hw => cases h1; exact ⟨rfl, by simp [isAsk, hw]⟩
          · next hw _ => cases h1; exact ⟨rfl, by simp [isAsk]; exact fun _ => hw⟩
        · rw [if_neg hb] at h1; cases h1
    refine ⟨g1.trans key.1, ?_⟩
    rw [g2, key.2, List.countP_cons]
    omega

/-- Keys give the exact state: after any history and a reset, `d` answers as `e`. -/
theorem Keyed.after {key : D → κ} {out : D → List α} {size : Nat} (hk : Keyed key out size) {d d' d'' e : D} {rs rs' : List Req}
    {as : List Answer} (h : serveAll d rs = some (d', as)) (hr : Bus.reset d' = some d'') (he : key d'' = key e)
    (hw : ∀ r ∈ rs', r.Within size) : answersAfter d (rs ++ [.reset]) rs' = answersAfter e [] rs' := by
  have h6 : serveAll d (rs ++ [.reset]) = some (d'', as ++ [.done]) := by
    rw [serveAll_snoc h]; simp only [serve, hr]; rfl
  rw [answersAfter_of h6, answersAfter_of (serveAll_nil e)]
  exact hk.same he rs' hw

/-- **C108**, character keyboard: once reset it is as a new one, except that the characters already asked for are gone. -/
theorem C108_char_keyboard_partial (input : Nat → Char) (hw : U64) {rs rs' : List Req} (h' : ∀ r ∈ rs', r.Within 8)
    (hs : serveAll (SyncCharKeyboard.new input hw) rs ≠ none) :
    answersAfter (SyncCharKeyboard.new input hw) (rs ++ [.reset]) rs' =
      answersAfter (SyncCharKeyboard.new (fun n => input (rs.countP (isAsk 4 1) + n)) hw) [] rs' := by
  cases h : serveAll (SyncCharKeyboard.new input hw) rs with
  | none => exact absurd h hs
  | some p =>
    obtain ⟨d', as⟩ := p
    obtain ⟨h1, h2⟩ := char_keyboard_asked h
    refine (char_keyboard_keyed 8).after h rfl ?_ h'
    refine Prod.ext rfl (funext fun n => ?_)
    show d'.input (d'.asked + n) = input (_ + (0 + n))
    rw [h1, h2, show (SyncCharKeyboard.new input hw).asked = 0 from rfl, Nat.zero_add, Nat.zero_add]
    rfl

/-- **C108** fails for a keyboard: the character typed before the reset is not given again. -/
theorem C108_keyboard_refuted : ∃ input : Nat → Char, ¬ Reboots (SyncCharKeyboard.new input 1) 8 := by
  refine ⟨fun n => if n = 0 then 'a' else 'b', fun h => ?_⟩
  have := h [.write 4 1 0] [.write 4 1 0, .read 0 0] (by intro r hr; rw [List.mem_singleton] at hr; subst hr; exact ⟨rfl, by decide⟩)
    (by
      intro r hr
      simp only [List.mem_cons, List.not_mem_nil, or_false] at hr
      rcases hr with rfl | rfl
      · exact ⟨rfl, by decide⟩
      · exact ⟨rfl, by decide⟩) (fun h => by cases h)
  exact absurd this (by decide +kernel)

theorem line_keyboard_keyed (size : Nat) :
    Keyed (fun d : SyncLineKeyboard => (d.buffer, d.capacity, fun n => d.input (d.asked + n))) (fun _ => ([] : List Unit)) size where
  step := by
    rintro ⟨b, c, f, n, h⟩ ⟨b', c', f', n', h'⟩ q - he
    simp only [Prod.mk.injEq] at he
    obtain ⟨rfl, rfl, hf⟩ := he
    have hn : ∀ k, f (n + k) = f' (n' + k) := fun k => congrFun hf k
    have out : ∃ new : List Unit, ([] : List Unit) = [] ++ new ∧ ([] : List Unit) = [] ++ new := ⟨[], rfl, rfl⟩
    cases q with
    | read a ex =>
      simp only [serve, Bus.read]
      split
      · exact ⟨by simp only [hf], rfl, out⟩
      · cases b[(a / 4).toNat]? with
        | none => trivial
        | some w => exact ⟨by simp only [hf], rfl, out⟩
    | reset => exact ⟨by simp only [hf], rfl, out⟩
    | write a v ex =>
      show resAlike _ ((SyncLineKeyboard.write _ a v ex).map _) ((SyncLineKeyboard.write _ a v ex).map _)
      simp only [SyncLineKeyboard.write]
      split
      · exact ⟨by simp only [hf], rfl, out⟩
      · split
        · have h0 : f n = f' n' := hn 0
          refine ⟨?_, rfl, out⟩
          have h1 : (fun k => f (n + 1 + k)) = fun k => f' (n' + 1 + k) := funext fun k => by
            rw [Nat.add_assoc, Nat.add_assoc]; exact hn _
          simp only [h0, h1]
        · exact ⟨by simp only [hf], rfl, out⟩
        · exact ⟨by simp only [hf], rfl, out⟩

theorem line_keyboard_asked {d d' : SyncLineKeyboard} {rs : List Req} {as : List Answer} (h : serveAll d rs = some (d', as)) :
    d'.input = d.input ∧ d'.capacity = d.capacity ∧ d'.buffer.length = d.buffer.length ∧
    d'.asked = d.asked + rs.countP (isAsk (d.capacity.toNat * 4) 0xAA) := by
  induction rs generalizing d as with
  | nil => cases h; exact ⟨rfl, rfl, rfl, rfl⟩
  | cons r rs ih =>
    obtain ⟨x, a, bs, h1, h2, rfl⟩ := serveAll_cons_inv h
    obtain ⟨g1, g2, g3, g4⟩ := ih h2
    have key : x.input = d.input ∧ x.capacity = d.capacity ∧ x.buffer.length = d.buffer.length ∧
        x.asked = d.asked + (if isAsk (d.capacity.toNat * 4) 0xAA r then 1 else 0) := by
      cases r with
      | read b ex =>
        simp only [serve, Option.map_eq_some_iff] at h1
        obtain ⟨⟨z, w, ex'⟩, h1, h3⟩ := h1
        cases h3
        simp only [Bus.read] at h1
        split at h1
        · cases h1; exact ⟨rfl, rfl, rfl, rfl⟩
        · simp only [Option.bind_eq_bind, Option.bind_eq_some_iff] at h1
          obtain ⟨_, _, h1⟩ := h1
          cases h1; exact ⟨rfl, rfl, rfl, rfl⟩
      | reset => cases h1; exact ⟨rfl, rfl, by simp, rfl⟩
      | write b w ex =>
        simp only [serve, Option.map_eq_some_iff] at h1
        obtain ⟨⟨z, ex'⟩, h1, h3⟩ := h1
        cases h3
        have h1 : SyncLineKeyboard.write d b w ex = some (z, ex') := h1
        unfold SyncLineKeyboard.write at h1
        by_cases hb : b / 4 ≠ d.capacity
        · rw [if_pos hb] at h1
          cases h1
          have hne : ¬ b.toNat / 4 * 4 = d.capacity.toNat * 4 := fun hh =>
            hb (BitVec.eq_of_toNat_eq (by rw [word_div4]; omega))
          exact ⟨rfl, rfl, rfl, by simp [isAsk, hne]⟩
        · rw [if_neg hb] at h1
          have he : b.toNat / 4 * 4 = d.capacity.toNat * 4 := by
            rw [← Decidable.not_not.mp hb, word_div4]
          split at h1
          · next hw => cases h1; exact ⟨rfl, rfl, lineLoop_length .., by simp [isAsk, he, hw]⟩
          · next hw => cases h1; exact ⟨rfl, rfl, by simp, by simp [isAsk, hw]⟩
          · next hw _ => cases h1; exact ⟨rfl, rfl, rfl, by simp [isAsk]; exact fun _ => hw⟩
    refine ⟨g1.trans key.1, g2.trans key.2.1, g3.trans key.2.2.1, ?_⟩
    rw [g4, key.2.1, key.2.2.2, List.countP_cons]
    omega

/-- **C108**, line keyboard: once reset it is as a new one, except that the lines already asked for are gone. -/
theorem C108_line_keyboard_partial {cap : Word} {input : Nat → List Char} {hw : U64} {d : SyncLineKeyboard}
    (hd : SyncLineKeyboard.new cap input hw = some d) {rs rs' : List Req} (h' : ∀ r ∈ rs', r.Within cap.toNat)
    (hs : serveAll d rs ≠ none) :
    ∃ e, SyncLineKeyboard.new cap (fun n => input (rs.countP (isAsk (cap.toNat - 4) 0xAA) + n)) hw = some e ∧
      answersAfter d (rs ++ [.reset]) rs' = answersAfter e [] rs' := by
  unfold SyncLineKeyboard.new at hd ⊢
  by_cases h4 : cap % 4 ≠ 0
  · rw [if_pos h4] at hd; cases hd
  rw [if_neg h4] at hd ⊢
  by_cases h0 : cap = 0
  · rw [if_pos h0] at hd; cases hd
  rw [if_neg h0] at hd ⊢
  dsimp only at hd ⊢
  refine ⟨_, rfl, ?_⟩
  cases h : serveAll d rs with
  | none => exact absurd h hs
  | some p =>
    obtain ⟨d', as⟩ := p
    obtain ⟨h1, h2, h3, h5⟩ := line_keyboard_asked h
    refine (line_keyboard_keyed cap.toNat).after h rfl ?_ h'
    cases hd
    have hcap : (cap / 4 - 1).toNat * 4 = cap.toNat - 4 := by
      have hd4 := word_div4 cap
      have hm : cap.toNat % 4 = 0 := word_mod4 h4
      have hpos : cap.toNat ≠ 0 := fun hh => h0 (BitVec.eq_of_toNat_eq hh)
      have hlt := cap.isLt
      rw [BitVec.toNat_sub, hd4, show (1 : Word).toNat = 1 from rfl,
        show 2 ^ 32 - 1 + cap.toNat / 4 = (cap.toNat / 4 - 1) + 2 ^ 32 by omega, Nat.add_mod_right,
        Nat.mod_eq_of_lt (by omega)]
      omega
    rw [hcap] at h5
    refine Prod.ext ?_ (Prod.ext h2 (funext fun n => ?_))
    · show List.replicate d'.buffer.length 0 = List.replicate _ 0
      rw [h3, List.length_replicate]
    · show d'.input (d'.asked + n) = input (_ + (0 + n))
      rw [h1, h5, Nat.zero_add, Nat.zero_add]

theorem clock_keyed (size : Nat) :
    Keyed (fun d : RealtimeClock => (d.resetAt, (fun n => d.system (d.reads + n)), fun n => d.instant (d.reads + n)))
      (fun _ => ([] : List Unit)) size where
  step := by
    rintro ⟨h, t, f, g, n⟩ ⟨h', t', f', g', n'⟩ q - he
    simp only [Prod.mk.injEq] at he
    obtain ⟨rfl, hf, hg⟩ := he
    have fn : ∀ k, f (n + k) = f' (n' + k) := fun k => congrFun hf k
    have gn : ∀ k, g (n + k) = g' (n' + k) := fun k => congrFun hg k
    have f1 : (fun k => f (n + 1 + k)) = fun k => f' (n' + 1 + k) := funext fun k => by
      rw [Nat.add_assoc, Nat.add_assoc]; exact fn _
    have g1 : (fun k => g (n + 1 + k)) = fun k => g' (n' + 1 + k) := funext fun k => by
      rw [Nat.add_assoc, Nat.add_assoc]; exact gn _
    have out : ∃ new : List Unit, ([] : List Unit) = [] ++ new ∧ ([] : List Unit) = [] ++ new := ⟨[], rfl, rfl⟩
    cases q with
    | read a ex =>
      show resAlike _ ((RealtimeClock.read _ a ex).map _) ((RealtimeClock.read _ a ex).map _)
      simp only [RealtimeClock.read]
      have f0 : f n = f' n' := fn 0
      have g0 : g n = g' n' := gn 0
      rw [← f0, ← g0]
      split
      · cases f n with
        | none => exact ⟨by simp only [f1, g1], rfl, out⟩
        | some w =>
          dsimp only
          cases clockWord .debug w a with
          | none => trivial
          | some w => exact ⟨by simp only [f1, g1], rfl, out⟩
      · cases clockWord .debug (elapsed t (g n)) a with
        | none => trivial
        | some w => exact ⟨by simp only [f1, g1], rfl, out⟩
    | reset =>
      have g0 : g n = g' n' := gn 0
      exact ⟨by simp only [f1, g1, g0], rfl, out⟩
    | write a v ex => exact ⟨by simp only [hf, hg], rfl, out⟩

theorem clock_samples {d d' : RealtimeClock} {rs : List Req} {as : List Answer} (h : serveAll d rs = some (d', as)) :
    d'.system = d.system ∧ d'.instant = d.instant ∧ d'.reads = d.reads + rs.countP samples := by
  induction rs generalizing d as with
  | nil => cases h; exact ⟨rfl, rfl, rfl⟩
  | cons r rs ih =>
    obtain ⟨x, a, bs, h1, h2, rfl⟩ := serveAll_cons_inv h
    obtain ⟨g1, g2, g3⟩ := ih h2
    have key : x.system = d.system ∧ x.instant = d.instant ∧ x.reads = d.reads + (if samples r then 1 else 0) := by
      cases r with
      | read b ex =>
        simp only [serve, Option.map_eq_some_iff] at h1
        obtain ⟨⟨z, w, ex'⟩, h1, h3⟩ := h1
        cases h3
        have h1 : RealtimeClock.read d b ex = some (z, w, ex') := h1
        unfold RealtimeClock.read at h1
        dsimp only at h1
        by_cases hb : b < 14
        · rw [if_pos hb] at h1
          split at h1
          · simp only [Option.bind_eq_bind, Option.bind_eq_some_iff] at h1
            obtain ⟨_, _, h1⟩ := h1
            cases h1; exact ⟨rfl, rfl, rfl⟩
          · cases h1; exact ⟨rfl, rfl, rfl⟩
        · rw [if_neg hb] at h1
          simp only [Option.bind_eq_bind, Option.bind_eq_some_iff] at h1
          obtain ⟨_, _, h1⟩ := h1
          cases h1; exact ⟨rfl, rfl, rfl⟩
      | reset => cases h1; exact ⟨rfl, rfl, rfl⟩
      | write b w ex => cases h1; exact ⟨rfl, rfl, rfl⟩
    refine ⟨g1.trans key.1, g2.trans key.2.1, ?_⟩
    rw [g3, key.2.2, List.countP_cons]
    omega

/-- **C108**, clock: once reset it is as a clock created at the time of the reset. The clock takes a sample of the time at its
creation, at each read and at each reset. -/
theorem C108_clock_partial (hw : U64) (system : Nat → Option Duration) (instant : Nat → Nat) {rs rs' : List Req}
    (h' : ∀ r ∈ rs', r.Within 24) (hs : serveAll (RealtimeClock.new hw system instant) rs ≠ none) :
    answersAfter (RealtimeClock.new hw system instant) (rs ++ [.reset]) rs' =
      answersAfter (RealtimeClock.new hw (fun n => system (1 + rs.countP samples + n)) (fun n => instant (1 + rs.countP samples + n))) [] rs' := by
  cases h : serveAll (RealtimeClock.new hw system instant) rs with
  | none => exact absurd h hs
  | some p =>
    obtain ⟨d', as⟩ := p
    obtain ⟨h1, h2, h3⟩ := clock_samples h
    have h3 : d'.reads = 1 + rs.countP samples := h3
    refine (clock_keyed 24).after h rfl ?_ h'
    refine Prod.ext ?_ (Prod.ext (funext fun n => ?_) (funext fun n => ?_))
    · show d'.instant d'.reads = instant (1 + rs.countP samples + 0)
      rw [h2, h3]; rfl
    · show d'.system (d'.reads + 1 + n) = system (1 + rs.countP samples + (1 + n))
      rw [h1, h3, Nat.add_assoc (1 + _) 1 n]; rfl
    · show d'.instant (d'.reads + 1 + n) = instant (1 + rs.countP samples + (1 + n))
      rw [h2, h3, Nat.add_assoc (1 + _) 1 n]; rfl

/-! ## File-backed memory -/

theorem file_keyed (size : Nat) : Keyed (fun d : FileBackedMem => (d.file, (fun n => d.broken (d.calls + n)), d.realSize, d.writable))
    (fun _ => ([] : List Unit)) size where
  step := by
    intro d e q _ hk
    simp only [Prod.mk.injEq] at hk
    obtain ⟨k1, k2, k3, k4⟩ := hk
    have b0 : d.broken d.calls = e.broken e.calls := congrFun k2 0
    have b1 : d.broken (d.calls + 1) = e.broken (e.calls + 1) := congrFun k2 1
    have kn : ∀ m, (fun n => d.broken (d.calls + m + n)) = (fun n => e.broken (e.calls + m + n)) := fun m => by
      funext n; have := congrFun k2 (m + n); simpa only [Nat.add_assoc] using this
    cases q with
    | read a ex =>
      show resAlike _ ((FileBackedMem.read d a ex).map _) ((FileBackedMem.read e a ex).map _)
      unfold FileBackedMem.read
      rw [b0, b1, k3, k1]
      split
      · exact ⟨by simp only [k1, k2, k3, k4], rfl, [], rfl, rfl⟩
      · split
        · exact ⟨by simp only [k1, kn, k3, k4], rfl, [], rfl, rfl⟩
        · split
          · exact ⟨by simp only [k1, kn, k3, k4], rfl, [], rfl, rfl⟩
          · exact ⟨by simp only [k1, kn, k3, k4], rfl, [], rfl, rfl⟩
    | write a w ex =>
      show resAlike _ ((FileBackedMem.write d a w ex).map _) ((FileBackedMem.write e a w ex).map _)
      unfold FileBackedMem.write
      rw [b0, b1, k3, k1, k4]
      split
      · exact ⟨by simp only [k1, k2, k3, k4], rfl, [], rfl, rfl⟩
      · split
        · split
          · trivial
          · exact ⟨by simp only [kn, k3, k4], rfl, [], rfl, rfl⟩
        · exact ⟨by simp only [k1, k2, k3, k4], rfl, [], rfl, rfl⟩
    | reset => exact ⟨by simp only [k1, k2, k3, k4], rfl, [], rfl, rfl⟩

theorem file_serve_keeps {d d' : FileBackedMem} (hi : FileInv d) {q : Req} {a : Answer} {bound : Nat} (hq : q.Within bound)
    (h : serve d q = some (d', a)) : d'.broken = d.broken ∧ d'.realSize = d.realSize ∧ d'.writable = d.writable ∧
      d'.file.length = d.file.length ∧ d.calls ≤ d'.calls := by
  cases q with
  | read b ex =>
    simp only [serve, Option.map_eq_some_iff] at h
    obtain ⟨⟨z, w, ex'⟩, h, h3⟩ := h
    cases h3
    have h : FileBackedMem.read d b ex = some (z, w, ex') := h
    unfold FileBackedMem.read at h
    repeat' split at h
    all_goals cases h; exact ⟨rfl, rfl, rfl, rfl, by simp⟩
  | write b w ex =>
    simp only [serve, Option.map_eq_some_iff] at h
    obtain ⟨⟨z, ex'⟩, h, h3⟩ := h
    cases h3
    have h : FileBackedMem.write d b w ex = some (z, ex') := h
    unfold FileBackedMem.write at h
    split at h
    · cases h; exact ⟨rfl, rfl, rfl, rfl, by simp⟩
    · split at h
      · rename_i hb
        split at h
        · cases h
        · cases h
          refine ⟨rfl, rfl, rfl, ?_, by simp⟩
          refine overwrite_length ?_
          have := hi.aligned; have := hi.inside
          have h4 : (beBytes 4 w).length = 4 := rfl
          have hb : b.toNat < d.realSize.toNat := hb
          have hq : b.toNat % 4 = 0 := hq.1
          omega
      · cases h; exact ⟨rfl, rfl, rfl, rfl, by simp⟩
  | reset => cases h; exact ⟨rfl, rfl, rfl, rfl, Nat.le_refl _⟩

theorem file_keeps {d d' : FileBackedMem} (hi : FileInv d) {rs : List Req} {as : List Answer} {bound : Nat} (hr : ∀ r ∈ rs, r.Within bound)
    (h : serveAll d rs = some (d', as)) : d'.broken = d.broken ∧ d'.realSize = d.realSize ∧ d'.writable = d.writable ∧
      d'.file.length = d.file.length := by
  induction rs generalizing d as with
  | nil => cases h; exact ⟨rfl, rfl, rfl, rfl⟩
  | cons r rs ih =>
    obtain ⟨x, a, bs, h1, h2, rfl⟩ := serveAll_cons_inv h
    obtain ⟨k1, k2, k3, k4, _⟩ := file_serve_keeps hi (hr r List.mem_cons_self) h1
    obtain ⟨g1, g2, g3, g4⟩ := ih ⟨by rw [k2]; exact hi.aligned, by rw [k2, k4]; exact hi.inside⟩
      (fun q hq => hr q (List.mem_cons_of_mem _ hq)) h2
    exact ⟨g1.trans k1, g2.trans k2, g3.trans k3, g4.trans k4⟩

/-- **C108**, file-backed memory: a reset changes nothing at all. Once reset, a component whose history left the file `d'.file` (`C67_history_partial` tells
which bytes) answers as a new one opened on that file, under the operating system's failures that come after. -/
theorem C108_file_partial {file : List U8} {broken : Nat → Bool} {wr : Bool} {hw : U64} {d d' : FileBackedMem} {rs : List Req}
    {as : List Answer} {bound : Nat} (ho : FileBackedMem.open file broken wr hw = some d) (hr : ∀ r ∈ rs, r.Within bound)
    (hs : serveAll d rs = some (d', as)) :
    Bus.reset d' = some d' ∧
    ∃ e, FileBackedMem.open d'.file (fun n => broken (d'.calls + n)) wr hw = some e ∧
      ∀ rs', (∀ r ∈ rs', r.Within bound) → answersAfter d (rs ++ [.reset]) rs' = answersAfter e [] rs' := by
  refine ⟨rfl, ?_⟩
  obtain ⟨hi, f1, f2, f3, f4, f5, f6⟩ := file_open ho
  obtain ⟨k1, k2, k3, k4⟩ := file_keeps hi hr hs
  have hlt : ¬ 4294967296 ≤ d'.file.length := by
    rw [k4, f1]; intro hc; unfold FileBackedMem.open at ho; rw [if_pos hc] at ho; cases ho
  cases he : FileBackedMem.open d'.file (fun n => broken (d'.calls + n)) wr hw with
  | none => unfold FileBackedMem.open at he; rw [if_neg hlt] at he; cases he
  | some e =>
    refine ⟨e, rfl, fun rs' h' => ?_⟩
    obtain ⟨_, e1, e2, e3, e4, _, e6⟩ := file_open he
    refine (file_keyed bound).after hs rfl ?_ h'
    refine Prod.ext e1.symm (Prod.ext (funext fun n => ?_) (Prod.ext (BitVec.eq_of_toNat_eq ?_) ?_))
    · show d'.broken (d'.calls + n) = e.broken (e.calls + n)
      rw [k1, f2, e2, e6, Nat.zero_add]
    · show d'.realSize.toNat = e.realSize.toNat
      rw [k2, f4, e4, k4, f1]
    · show d'.writable = e.writable
      rw [k3, f3, e3]

/-- A file of eight bytes, one of its words overwritten before the reset. -/
example : ∃ d d' as, FileBackedMem.openWritable [0, 0, 0, 5, 0, 0, 0, 6] (fun _ => false) 1 = some d ∧
    serveAll d [.write 4 9 0] = some (d', as) ∧ d'.file = [0, 0, 0, 5, 0, 0, 0, 9] ∧
    ∃ e, FileBackedMem.open d'.file (fun _ => false) true 1 = some e ∧
      answersAfter d ([.write 4 9 0] ++ [.reset]) [.read 4 0] = answersAfter e [] [.read 4 0] ∧
      answersAfter e [] [.read 4 0] = some [.value 9 0] :=
  ⟨_, _, _, rfl, rfl, rfl, _, rfl, rfl, rfl⟩

/-! ## Boards -/

theorem answersAfter_inr {E : Type} [Bus E] (e : E) (rs rs' : List Req) :
    answersAfter (D := D ⊕ E) (.inr e) rs rs' = answersAfter e rs rs' := by
  unfold answersAfter
  rw [serveAll_inr]
  cases serveAll e rs with
  | none => rfl
  | some p =>
    simp only [Option.map_some, Option.bind_some]
    rw [serveAll_inr]
    cases serveAll p.1 rs' <;> rfl

theorem serveAll_inl {E : Type} [Bus E] (d : D) (rs : List Req) :
    serveAll (D := D ⊕ E) (.inl d) rs = (serveAll d rs).map fun p => (.inl p.1, p.2) := by
  induction rs generalizing d with
  | nil => rfl
  | cons r rs ih =>
    have hs : serve (D := D ⊕ E) (.inl d) r = (serve d r).map fun p => (.inl p.1, p.2) := by
      cases r with
      | read a ex =>
        show ((Bus.read d a ex).map _).map _ = ((Bus.read d a ex).map _).map _
        cases Bus.read d a ex <;> rfl
      | write a w ex =>
        show ((Bus.write d a w ex).map _).map _ = ((Bus.write d a w ex).map _).map _
        cases Bus.write d a w ex <;> rfl
      | reset =>
        show ((Bus.reset d).map _).map _ = ((Bus.reset d).map _).map _
        cases Bus.reset d <;> rfl
    simp only [serveAll, hs]
    cases serve d r with
    | none => rfl
    | some p =>
      simp only [Option.map_some, Option.bind_eq_bind, Option.bind_some, ih]
      cases serveAll p.1 rs <;> rfl

theorem answersAfter_inl {E : Type} [Bus E] (d : D) (rs rs' : List Req) :
    answersAfter (D := D ⊕ E) (.inl d) rs rs' = answersAfter d rs rs' := by
  unfold answersAfter
  rw [serveAll_inl]
  cases serveAll d rs with
  | none => rfl
  | some p =>
    simp only [Option.map_some, Option.bind_some]
    rw [serveAll_inl]
    cases serveAll p.1 rs' <;> rfl

/-- Components of different kinds on the same board. -/
theorem reboots_inl {E : Type} [Bus E] {d : D} {size : Nat} (h : Reboots d size) : Reboots (D := D ⊕ E) (.inl d) size := by
  intro rs rs' h1 h2 h3
  rw [answersAfter_inl, answersAfter_inl]
  exact h rs rs' h1 h2 fun hn => h3 (by rw [serveAll_inl, hn]; rfl)

theorem reboots_inr {E : Type} [Bus E] {e : E} {size : Nat} (h : Reboots e size) : Reboots (D := D ⊕ E) (.inr e) size := by
  intro rs rs' h1 h2 h3
  rw [answersAfter_inr, answersAfter_inr]
  exact h rs rs' h1 h2 fun hn => h3 (by rw [serveAll_inr, hn]; rfl)

/-- A boot ROM with a program and a RAM created with a content (lost at the first reset): the machine is run, its RAM is changed
through direct writes, then it is reset; whatever follows is what follows the first boot. The first run did something. -/
example (ops : List HostOp) : ∃ (ds : List Demo.Dev) (s0 s1 s2 : Machine Demo.Dev) (rom : BootRom) (ram : Ram),
    ds = [.inl rom, .inr ram] ∧ BootRom.new [0x0F010000, 7, 8, 9] 1 = some rom ∧ Ram.fromWithSize [5, 6] 0x40 2 = some ram ∧
    newBoard .debug ds = some s0 ∧ hostRun .debug [.map 0 0, .map 0x40 1] s0 = some s1 ∧
    hostRun .debug [.reset, .next, .memWrite 0x44 9 0, .next, .cpuReset, .memRead 0x44 0] s1 = some s2 ∧
    (memRead .debug s2 0x44 0).map (·.1) = some 9 ∧
    SameOutcome .debug (hostRun .debug (.reset :: ops) s1) (hostRun .debug (.reset :: ops) s2) := by
  obtain ⟨rom, ram, s0, s1, s2, e1, e2, e3, e4, e5, e6, m2⟩ : ∃ (rom : BootRom) (ram : Ram) (s0 s1 s2 : Machine Demo.Dev),
      BootRom.new [0x0F010000, 7, 8, 9] 1 = some rom ∧ Ram.fromWithSize [5, 6] 0x40 2 = some ram ∧
      newBoard .debug [.inl rom, .inr ram] = some s0 ∧ hostRun .debug [.map 0 0, .map 0x40 1] s0 = some s1 ∧
      hostRun .debug [.reset, .next, .memWrite 0x44 9 0, .next, .cpuReset, .memRead 0x44 0] s1 = some s2 ∧
      (memRead .debug s2 0x44 0).map (·.1) = some 9 ∧
      (∀ md, Bus.metadata .debug ram = some md → md[2].toNat = 0x40) :=
    ⟨_, _, _, _, _, rfl, rfl, rfl, rfl, rfl, rfl, by intro md h; cases h; rfl⟩
  refine ⟨_, s0, s1, s2, rom, ram, rfl, e1, e2, e3, e4, e5, e6, ?_⟩
  refine C107_unmapped e3 ?_ e4 e5 ?_ ops
  · intro d hd md hmd
    simp only [List.mem_cons, List.not_mem_nil, or_false] at hd
    rcases hd with rfl | rfl
    · exact reboots_inl (C108_bootrom ⟨1, .inl e1⟩ _).reboots
    · rw [m2 md hmd]
      exact reboots_inr (C107_memory (C64_from_with_size (pf := .debug) e2))
  · intro op hop
    simp only [List.mem_cons, List.not_mem_nil, or_false] at hop
    rcases hop with rfl | rfl | rfl | rfl | rfl | rfl <;> exact id

/-- A keyboard that was used before its reset: `C108_char_keyboard_partial` says it goes on with the third character. -/
example : answersAfter (SyncCharKeyboard.new (fun n => Char.ofNat (65 + n)) 1)
      ([.write 4 1 0, .read 0 0, .write 4 1 0] ++ [.reset]) [.read 0 0, .write 4 1 0, .read 0 0] =
    some [.value 0 0, .wrote 0, .value 67 0] := by decide +kernel

/-- A clock that was read twice before its reset: `C108_clock_partial`. -/
example : answersAfter (RealtimeClock.new 1 (fun n => some { secs := BitVec.ofNat 64 n, nanos := 0 }) (fun n => 1000000000 * n))
      ([.read 4 0, .read 16 0] ++ [.reset]) [.read 16 0, .read 4 0, .read 16 0] =
    some [.value 1 0, .value 5 0, .value 3 0] := by decide +kernel

/-- A boot ROM and a fresh memory are as new once reset; a RAM that started with a content is not. -/
example : (∃ d, Ram.new 8 1 = some d ∧ answersAfter d ([.write 4 7 0] ++ [.reset]) [.read 4 0] = answersAfter d [] [.read 4 0]) ∧
    ∃ d, Ram.fromWithSize [5, 6] 8 1 = some d ∧ answersAfter d ([.write 4 7 0] ++ [.reset]) [.read 4 0] = some [.value 0 0] ∧
      answersAfter d [] [.read 4 0] = some [.value 6 0] :=
  ⟨⟨_, rfl, by decide +kernel⟩, _, rfl, by decide +kernel, by decide +kernel⟩

end Lrvm
