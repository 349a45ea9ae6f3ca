import Verif.Lemmas.Replay
import Verif.Spec.Replay
import Verif.Props.Devices.Interchange
import Verif.Props.Hardware

/-!
# A run can be replayed from the answers of its components: C128
-/

namespace Lrvm

open Spec

variable {D E : Type} [Bus D] [Bus E] {pf : Profile}

/-- A component with a tape adds the request and its answer to it. -/
theorem taped_serve {d d' : Taped D} {q : Req} {an : Answer} (h : serve d q = some (d', an)) :
    serve d.dev q = some (d'.dev, an) ∧ d'.tape = d.tape ++ [(q, an)] := by
  cases q with
  | read a ex =>
    have h : ((Bus.read d.dev a ex).map _).map _ = some (d', an) := h
    cases h1 : Bus.read d.dev a ex with
    | none => rw [h1] at h; cases h
    | some p => rw [h1] at h; cases h; exact ⟨by simp only [serve, h1]; rfl, rfl⟩
  | write a w ex =>
    have h : ((Bus.write d.dev a w ex).map _).map _ = some (d', an) := h
    cases h1 : Bus.write d.dev a w ex with
    | none => rw [h1] at h; cases h
    | some p => rw [h1] at h; cases h; exact ⟨by simp only [serve, h1]; rfl, rfl⟩
  | reset =>
    have h : ((Bus.reset d.dev).map _).map _ = some (d', an) := h
    cases h1 : Bus.reset d.dev with
    | none => rw [h1] at h; cases h
    | some p => rw [h1] at h; cases h; exact ⟨by simp only [serve, h1]; rfl, rfl⟩

/-- `e`, as it was at the beginning of the tape, answers what is on the tape and becomes `e'`. -/
def Answers (e e' : E) (tape : List (Req × Answer)) : Prop := serveAll e (tape.map (·.1)) = some (e', tape.map (·.2))

theorem answers_back {e e' : E} {tape : List (Req × Answer)} {x : Req × Answer} (h : Answers e e' (tape ++ [x])) :
    ∃ e1, Answers e e1 tape ∧ serve e1 x.1 = some (e', x.2) := by
  unfold Answers at h
  rw [List.map_append, List.map_append] at h
  obtain ⟨e1, as1, as2, g1, g2, g3⟩ := serveAll_append_inv h
  obtain ⟨e2, a, as', g4, g5, rfl⟩ := serveAll_cons_inv g2
  cases g5
  have := List.append_inj' g3 rfl
  refine ⟨e1, ?_, ?_⟩
  · rw [Answers, g1, this.1]
  · rw [g4]
    have h2 := this.2
    simp only [List.map_cons, List.map_nil, List.cons.injEq, and_true] at h2
    rw [h2]

theorem answers_snoc {e e1 e' : E} {tape : List (Req × Answer)} {x : Req × Answer} (h : Answers e e1 tape)
    (hs : serve e1 x.1 = some (e', x.2)) : Answers e e' (tape ++ [x]) := by
  unfold Answers at h ⊢
  rw [List.map_append, List.map_append]
  exact (serveAll_snoc h x.1).trans (by rw [hs]; rfl)

/-- From requests to the three methods. -/
theorem devRep_of_serve {G : Nat → D → Prop} {R : Nat → D → E → Prop} {cache : List AuxCache}
    (hb : ∀ {i d q d' an}, serve d q = some (d', an) → G i d' → G i d)
    (h : ∀ {i d e q d' an}, R i d e → serve d q = some (d', an) → G i d' → ∃ e', serve e q = some (e', an) ∧ R i d' e') :
    DevRep G R cache where
  backRead {i d a ex d' w ex'} hr := hb (q := .read a ex) (an := .value w ex') (by simp only [serve, hr]; rfl)
  backWrite {i d a w ex d' ex'} hr := hb (q := .write a w ex) (an := .wrote ex') (by simp only [serve, hr]; rfl)
  backReset {i d d'} hr := hb (q := .reset) (an := .done) (by simp only [serve, hr]; rfl)
  read {i d e a ex d' w ex'} hR _ hr hg := by
    obtain ⟨e', h1, h2⟩ := h (q := .read a ex) (an := .value w ex') hR (by simp only [serve, hr]; rfl) hg
    obtain ⟨⟨e2, w2, x2⟩, h3, h4⟩ := Option.map_eq_some_iff.mp h1
    cases h4
    exact ⟨_, h3, h2⟩
  write {i d e a w ex d' ex'} hR _ hr hg := by
    obtain ⟨e', h1, h2⟩ := h (q := .write a w ex) (an := .wrote ex') hR (by simp only [serve, hr]; rfl) hg
    obtain ⟨⟨e2, x2⟩, h3, h4⟩ := Option.map_eq_some_iff.mp h1
    cases h4
    exact ⟨_, h3, h2⟩
  reset {i d e d'} hR hr hg := by
    obtain ⟨e', h1, h2⟩ := h (q := .reset) (an := .done) hR (by simp only [serve, hr]; rfl) hg
    obtain ⟨e2, h3, h4⟩ := Option.map_eq_some_iff.mp h1
    cases h4
    exact ⟨_, h3, h2⟩

/-- The second board's component can answer the tape. -/
def CanFollow (es : List E) (i : Nat) (d : Taped D) : Prop := ∃ e0 e', es[i]? = some e0 ∧ Answers e0 e' d.tape

/-- The second board's component answered the tape. -/
def Followed (es : List E) (i : Nat) (d : Taped D) (e : E) : Prop := ∃ e0, es[i]? = some e0 ∧ Answers e0 e d.tape

theorem follow_devRep (es : List E) (cache : List AuxCache) :
    DevRep (D := Taped D) (CanFollow es) (Followed es) cache := by
  refine devRep_of_serve ?_ ?_
  · rintro i d q d' an hs ⟨e0, e', h1, h2⟩
    rw [(taped_serve hs).2] at h2
    obtain ⟨e1, h3, _⟩ := answers_back h2
    exact ⟨e0, e1, h1, h3⟩
  · rintro i d e q d' an ⟨e0, h1, h2⟩ hs ⟨e0', e', h3, h4⟩
    rw [h1] at h3; cases h3
    rw [(taped_serve hs).2] at h4
    obtain ⟨e1, h5, h6⟩ := answers_back h4
    have : e1 = e := by
      have := h5.symm.trans h2
      simpa using this
    subst this
    refine ⟨e', h6, e0, h1, ?_⟩
    rw [(taped_serve hs).2]
    exact h4

/-- The component answers its own tape. -/
theorem tape_serves {devs : List D} {s0 s' : Machine (Taped D)} {ops : List HostOp} (hb : newBoard pf (devs.map blank) = some s0)
    (h : hostRun pf ops s0 = some s') {i : Nat} {d : Taped D} (hd : s'.devs[i]? = some d) :
    ∃ d0, devs[i]? = some d0 ∧ Answers d0 d.dev d.tape := by
  obtain ⟨_, _, hdv, hmap, _⟩ := newBoard_inv hb
  have hi : DevInv (D := Taped D) (fun i d => ∃ d0, devs[i]? = some d0 ∧ Answers d0 d.dev d.tape) s0.memCache := by
    have key : ∀ {i : Nat} {d d' : Taped D} {q : Req} {an : Answer}, (∃ d0, devs[i]? = some d0 ∧ Answers d0 d.dev d.tape) →
        serve d q = some (d', an) → ∃ d0, devs[i]? = some d0 ∧ Answers d0 d'.dev d'.tape := by
      rintro i d d' q an ⟨d0, h1, h2⟩ hs
      obtain ⟨h3, h4⟩ := taped_serve hs
      exact ⟨d0, h1, h4 ▸ answers_snoc (x := (q, an)) h2 h3⟩
    exact {
      read := fun {i d a ex d' w ex'} hP _ hr => key (q := .read a ex) (an := .value w ex') hP (by simp only [serve, hr]; rfl)
      write := fun {i d a w ex d' ex'} hP _ hr => key (q := .write a w ex) (an := .wrote ex') hP (by simp only [serve, hr]; rfl)
      reset := fun {i d d'} hP hr => key (q := .reset) (an := .done) hP (by simp only [serve, hr]; rfl) }
  obtain ⟨_, _, hdev⟩ := hostRun_devInv hi (by rw [hmap]; intro m hm; cases hm) (by
    rw [hdv]; intro i e he
    rw [List.getElem?_map] at he
    obtain ⟨d0, hd0, rfl⟩ := Option.map_eq_some_iff.mp he
    exact ⟨d0, hd0, rfl⟩) h
  exact hdev i d hd

/-- **C128**. Record a run: any components, any sequence of host calls (steps of whatever program the memory contains, resets, mapping
calls, direct accesses, register changes), which ends without panic. Put in their places other components, of any kinds, with the same
names and metadata, which give the recorded answers to the recorded requests. The same host calls end without panic, in a machine with the
same registers, mappings, cycle count and state of the CPU; and the new components received exactly the recorded requests. -/
theorem C128 {devs : List D} {es : List E} {s0 s' : Machine (Taped D)} {ops : List HostOp}
    (hb : newBoard pf (devs.map blank) = some s0) (h : hostRun pf ops s0 = some s') (hlen : devs.length = es.length)
    (hsame : ∀ (i : Nat) (d : D) (e : E), devs[i]? = some d → es[i]? = some e →
      Bus.name d = Bus.name e ∧ Bus.metadata pf d = Bus.metadata pf e)
    (hans : ∀ (i : Nat) (d : Taped D) (e : E), s'.devs[i]? = some d → es[i]? = some e →
      ∃ e', serveAll e (d.tape.map (·.1)) = some (e', d.tape.map (·.2))) :
    ∃ t0 t', newBoard pf es = some t0 ∧ hostRun pf ops t0 = some t' ∧ SameMachine s' t' ∧
      ∀ (i : Nat) (d : Taped D) (e e' : E), s'.devs[i]? = some d → es[i]? = some e → t'.devs[i]? = some e' →
        serveAll e (d.tape.map (·.1)) = some (e', d.tape.map (·.2)) := by
  have hnew := newBoard_alike (pf := pf) (R := Followed es) (ds := devs.map blank) (es := es) (by simpa using hlen) (fun i d e hd he => by
    rw [List.getElem?_map] at hd
    obtain ⟨d0, hd0, rfl⟩ := Option.map_eq_some_iff.mp hd
    obtain ⟨h1, h2⟩ := hsame i d0 e hd0 he
    exact ⟨h1, h2, e, he, rfl⟩)
  rw [hb] at hnew
  cases h2 : newBoard pf es with
  | none => rw [h2] at hnew; exact hnew.elim
  | some t0 =>
    rw [h2] at hnew
    have hnew : Alike (Followed es) s0.memCache s0 t0 := hnew
    obtain ⟨_, _, hdv, hmap, _⟩ := newBoard_inv hb
    obtain ⟨_, g⟩ := hostRun_rep (E := E) (R := Followed es) (follow_devRep es s0.memCache) ops
      (by rw [hmap]; intro m hm; cases hm) h (fun i d hd => by
        obtain ⟨d0, hd0, _⟩ := tape_serves hb h hd
        have hi : i < es.length := hlen ▸ (List.getElem?_eq_some_iff.mp hd0).1
        obtain ⟨e', he'⟩ := hans i d _ hd (List.getElem?_eq_getElem hi)
        exact ⟨_, e', List.getElem?_eq_getElem hi, he'⟩)
    obtain ⟨t', g1, g2⟩ := g t0 hnew
    refine ⟨t0, t', rfl, g1, ⟨g2.regs, g2.maps, g2.cycles, g2.halted, ⟨g2.hwb, g2.mem.trans g2.mem'.symm, g2.devs.1⟩, g2.changedPc⟩, ?_⟩
    intro i d e e' hd he he'
    obtain ⟨e0, h3, h4⟩ := g2.devs.2 i d e' hd he'
    rw [he] at h3; cases h3
    exact h4

/-! ### Players -/

theorem player_answers (n : List Char) (md : Profile → Res Metadata) : ∀ (tape : List (Req × Answer)) {d d' : D},
    serveAll d (tape.map (·.1)) = some (d', tape.map (·.2)) →
    serveAll (⟨n, md, tape⟩ : Player) (tape.map (·.1)) = some (⟨n, md, []⟩, tape.map (·.2)) := by
  intro tape
  induction tape with
  | nil => intro d d' _; rfl
  | cons x tape ih =>
    intro d d' h
    obtain ⟨d1, a, as, h1, h2, h3⟩ := serveAll_cons_inv h
    obtain ⟨q, an⟩ := x
    simp only [List.map_cons, List.cons.injEq] at h3
    obtain ⟨rfl, rfl⟩ := h3
    refine serveAll_cons ?_ (ih h2)
    cases q with
    | read b ex =>
      obtain ⟨p, _, h5⟩ := Option.map_eq_some_iff.mp h1
      cases h5
      simp [serve, Bus.read]
    | write b w ex =>
      obtain ⟨p, _, h5⟩ := Option.map_eq_some_iff.mp h1
      cases h5
      simp [serve, Bus.write]
    | reset =>
      obtain ⟨p, _, h5⟩ := Option.map_eq_some_iff.mp h1
      cases h5
      simp [serve, Bus.reset]

/-- **C128**, players. Any run of any board is repeated by a board without its components: on the board of their players (`Spec.Player`:
they know the recorded session and nothing else, and panic at any other request) the same host calls end without panic, in a machine with
the same registers, mappings, cycle count and state of the CPU, every player having played its whole session. -/
theorem C128_players {devs : List D} {s0 s' : Machine (Taped D)} {ops : List HostOp}
    (hb : newBoard pf (devs.map blank) = some s0) (h : hostRun pf ops s0 = some s') :
    ∃ t0 t', newBoard pf (List.zipWith (fun d x => playerOf d x.tape) devs s'.devs) = some t0 ∧ hostRun pf ops t0 = some t' ∧
      SameMachine s' t' ∧ ∀ p ∈ t'.devs, p.left = [] := by
  obtain ⟨_, _, hdv, hmap, _⟩ := newBoard_inv hb
  have hl : devs.length = s'.devs.length := by rw [(hostRun_keeps h).1, hdv, List.length_map]
  have hlen : devs.length = (List.zipWith (fun d (x : Taped D) => playerOf d x.tape) devs s'.devs).length := by
    rw [List.length_zipWith, ← hl, Nat.min_self]
  have hget : ∀ {i : Nat} {p : Player}, (List.zipWith (fun d (x : Taped D) => playerOf d x.tape) devs s'.devs)[i]? = some p →
      ∃ d x, devs[i]? = some d ∧ s'.devs[i]? = some x ∧ p = playerOf d x.tape := by
    intro i p hp
    rw [List.getElem?_zipWith] at hp
    cases h1 : devs[i]? with
    | none => rw [h1] at hp; cases hp
    | some d => cases h2 : s'.devs[i]? with
      | none => rw [h1, h2] at hp; cases hp
      | some x => rw [h1, h2] at hp; cases hp; exact ⟨d, x, rfl, rfl, rfl⟩
  have hplay : ∀ {i : Nat} {x : Taped D} {p : Player}, s'.devs[i]? = some x →
      (List.zipWith (fun d (x : Taped D) => playerOf d x.tape) devs s'.devs)[i]? = some p →
      serveAll p (x.tape.map (·.1)) = some ({ p with left := [] }, x.tape.map (·.2)) := by
    intro i x p hx hp
    obtain ⟨d, x', h1, h2, rfl⟩ := hget hp
    rw [hx] at h2; cases h2
    obtain ⟨d0, h3, h4⟩ := tape_serves hb h hx
    exact player_answers _ _ _ h4
  obtain ⟨t0, t', h1, h2, h3, h4⟩ := C128 hb h hlen (fun i d p hd hp => by
    obtain ⟨d', x, h1, _, rfl⟩ := hget hp
    rw [hd] at h1; cases h1
    exact ⟨rfl, rfl⟩) (fun i x p hx hp => ⟨_, hplay hx hp⟩)
  refine ⟨t0, t', h1, h2, h3, fun p hp => ?_⟩
  obtain ⟨i, hi, rfl⟩ := List.mem_iff_getElem.mp hp
  have hi2 : i < s'.devs.length := by rw [h3.hardware.2.2]; exact hi
  have hi3 := hlen ▸ hl ▸ hi2
  have g1 := h4 i _ _ _ (List.getElem?_eq_getElem hi2) (List.getElem?_eq_getElem hi3) (List.getElem?_eq_getElem hi)
  rw [hplay (List.getElem?_eq_getElem hi2) (List.getElem?_eq_getElem hi3)] at g1
  injection g1 with g1
  injection g1 with g1 g2
  rw [← g1]

/-- A program that stores 7 at 0x48 and loads it, then a reset and a direct read: the session recorded by the RAM, and the board of players that
repeats the run. -/
example : ∃ (s0 s' : Machine (Taped Demo.Dev)) (d : Taped Demo.Dev) (t0 t' : Machine Player),
    newBoard .debug ((Demo.devices [0xB0480007#32, 0xA0014800#32]).map blank) = some s0 ∧
    hostRun .debug [.mapContiguous 0 [0, 1], .cpuReset, .next, .next, .reset, .memRead 0x48 0] s0 = some s' ∧ s'.devs[1]? = some d ∧
    d.tape = [(.write 8 7 0, .wrote 0), (.read 8 0, .value 7 0), (.reset, .done), (.read 8 0, .value 0 0)] ∧
    newBoard .debug (List.zipWith (fun d x => playerOf d x.tape) (Demo.devices [0xB0480007#32, 0xA0014800#32]) s'.devs) = some t0 ∧
    hostRun .debug [.mapContiguous 0 [0, 1], .cpuReset, .next, .next, .reset, .memRead 0x48 0] t0 = some t' ∧ SameMachine s' t' := by
  have key : ∃ (s0 s' : Machine (Taped Demo.Dev)) (d : Taped Demo.Dev),
    newBoard .debug ((Demo.devices [0xB0480007#32, 0xA0014800#32]).map blank) = some s0 ∧
    hostRun .debug [.mapContiguous 0 [0, 1], .cpuReset, .next, .next, .reset, .memRead 0x48 0] s0 = some s' ∧ s'.devs[1]? = some d ∧
    d.tape = [(.write 8 7 0, .wrote 0), (.read 8 0, .value 7 0), (.reset, .done), (.read 8 0, .value 0 0)] :=
    ⟨_, _, _, rfl, rfl, rfl, rfl⟩
  obtain ⟨s0, s', d, h1, h2, h3, h4⟩ := key
  obtain ⟨t0, t', g1, g2, g3, _⟩ := C128_players h1 h2
  exact ⟨s0, s', d, t0, t', h1, h2, h3, h4, g1, g2, g3⟩

/-- A player panics at a request that is not the recorded one. -/
example : Bus.read (⟨[], fun _ => none, [(.read 8 0, .value 7 0)]⟩ : Player) 0xC 0 = none ∧
    (Bus.read (⟨[], fun _ => none, [(.read 8 0, .value 7 0)]⟩ : Player) 8 0).isSome := ⟨rfl, rfl⟩

end Lrvm
