import Verif.Props.Devices.Replay

/-!
# Words that are not read do not matter: C129
-/

namespace Lrvm

open Spec

variable {D : Type} [Bus D] {pf : Profile}

/-- Another component in place of one of the board's components: `C128` for this case. -/
theorem replay_replaced {devs : List D} {s0 s' : Machine (Taped D)} {ops : List HostOp}
    (hb : newBoard pf (devs.map blank) = some s0) (h : hostRun pf ops s0 = some s') {id : Nat} {d0 e0 : D}
    (hd0 : devs[id]? = some d0) (hn : Bus.name d0 = Bus.name e0) (hmd : Bus.metadata pf d0 = Bus.metadata pf e0)
    (hans : ∀ d, s'.devs[id]? = some d → ∃ e', Answers e0 e' d.tape) :
    ∃ t0 t', newBoard pf (devs.set id e0) = some t0 ∧ hostRun pf ops t0 = some t' ∧ SameMachine s' t' ∧
      ∀ i, i ≠ id → t'.devs[i]? = (s'.devs[i]?).map (·.dev) := by
  obtain ⟨t0, t', h1, h2, h3, h4⟩ := C128 (es := devs.set id e0) hb h (by simp) (fun i d e hd he => by
    rw [List.getElem?_set] at he
    split at he
    · next hi =>
      subst hi
      rw [hd0] at hd; cases hd
      split at he
      · cases he; exact ⟨hn, hmd⟩
      · cases he
    · rw [hd] at he; cases he; exact ⟨rfl, rfl⟩) (fun i d e hd he => by
    rw [List.getElem?_set] at he
    split at he
    · next hi =>
      subst hi
      split at he
      · cases he; exact hans d hd
      · cases he
    · obtain ⟨d1, g1, g2⟩ := tape_serves hb h hd
      rw [g1] at he; cases he
      exact ⟨_, g2⟩)
  refine ⟨t0, t', h1, h2, h3, fun i hi => ?_⟩
  have hl := h3.hardware.2.2
  cases hd : s'.devs[i]? with
  | none =>
    have := List.getElem?_eq_none_iff.mp hd
    exact List.getElem?_eq_none_iff.mpr (hl ▸ this)
  | some d =>
    obtain ⟨d1, g1, g2⟩ := tape_serves hb h hd
    have hi2 : i < t'.devs.length := hl ▸ (List.getElem?_eq_some_iff.mp hd).1
    have he := List.getElem?_eq_getElem hi2
    have g3 := h4 i d d1 _ hd (by rw [List.getElem?_set, if_neg (Ne.symm hi)]; exact g1) he
    rw [he]
    have g4 := g3.symm.trans g2
    simp only [Option.some.injEq, Prod.mk.injEq, and_true] at g4
    rw [g4]; rfl

theorem wordAfter_agree {init init' : Nat → Word} {tape : List (Req × Answer)} {a : Word}
    (h : (∃ x ∈ tape, ¬ x.1.Spares a) ∨ init (a.toNat / 4) = init' (a.toNat / 4)) :
    wordAfter init tape a = wordAfter init' tape a := by
  unfold wordAfter
  generalize init (a.toNat / 4) = v at h
  generalize init' (a.toNat / 4) = v' at h
  induction tape generalizing v v' with
  | nil =>
    rcases h with ⟨x, hx, _⟩ | h
    · cases hx
    · exact h
  | cons x tape ih =>
    rw [List.foldl_cons, List.foldl_cons]
    refine ih _ _ ?_
    obtain ⟨q, an⟩ := x
    rcases h with ⟨y, hy, hs⟩ | h
    · rcases List.mem_cons.mp hy with hy | hy
      · subst hy
        cases q with
        | read b ex => exact absurd trivial hs
        | write b w ex =>
          have hb : b = a := Classical.byContradiction fun hne => hs hne
          right
          simp only [hb, if_true]
        | reset => exact .inr rfl
      · exact .inl ⟨y, hy, hs⟩
    · subst h
      exact .inr rfl

/-- Two arrays of words with different contents, as long as no word is read that differs. -/
theorem wordMemory_follows {d0 e0 : D} {size : Nat} {init init' : Nat → Word} (hd : WordMemory pf d0 size init)
    (he : WordMemory pf e0 size init') : ∀ (rev : List (Req × Answer)) {d : D}, Answers d0 d rev.reverse →
    (∀ x ∈ rev, x.1.Within size) →
    (∀ before a ex an after, rev.reverse = before ++ (.read a ex, an) :: after →
      (∃ x ∈ before, ¬ x.1.Spares a) ∨ init (a.toNat / 4) = init' (a.toNat / 4)) →
    ∃ e, Answers e0 e rev.reverse := by
  intro rev
  induction rev with
  | nil => intro d _ _ _; exact ⟨e0, rfl⟩
  | cons x rev ih =>
    intro d h hw hr
    rw [List.reverse_cons] at h hr ⊢
    obtain ⟨d1, h1, h2⟩ := answers_back h
    obtain ⟨e1, g1⟩ := ih h1 (fun y hy => hw y (List.mem_cons_of_mem _ hy)) (fun before a ex an after hb =>
      hr before a ex an (after ++ [x]) (by rw [hb]; simp))
    obtain ⟨q, an⟩ := x
    have hwr : ∀ r ∈ rev.reverse.map (·.1), r.Within size := by
      intro r hr
      obtain ⟨y, hy, rfl⟩ := List.mem_map.mp hr
      exact hw y (List.mem_cons_of_mem _ (List.mem_reverse.mp hy))
    have hwq : ∀ r ∈ rev.reverse.map (·.1) ++ [q], r.Within size := by
      intro r hr
      rcases List.mem_append.mp hr with hr | hr
      · exact hwr r hr
      · rw [List.mem_singleton] at hr; rw [hr]; exact hw (q, an) List.mem_cons_self
    obtain ⟨d2, xs, hd2, _, hqd⟩ := hd.serves _ hwq
    obtain ⟨e2, ys, he2, _, hqe⟩ := he.serves _ hwq
    rw [serveAll_snoc h1] at hd2
    rw [serveAll_snoc g1] at he2
    obtain ⟨p, hp, hp'⟩ := Option.map_eq_some_iff.mp hd2
    obtain ⟨r, hr', hr''⟩ := Option.map_eq_some_iff.mp he2
    cases hp'; cases hr''
    have hp0 := hp.symm.trans h2
    injection hp0 with hp0
    subst hp0
    have qd := allQuiet_snoc hqd (serveAll_length h1)
    have qe := allQuiet_snoc hqe (serveAll_length g1)
    have hout : r.2 = an := by
      obtain ⟨r1, r2⟩ := r
      cases q with
      | read a ex =>
        have hq : (Req.read a ex).Within size := hwq _ (by simp)
        have k1 := wordMemory_read_after hd hwr h1 hq.1 hq.2 ex
        have k2 := wordMemory_read_after he hwr g1 hq.1 hq.2 ex
        have := wordAfter_agree (hr rev.reverse a ex an [] rfl)
        simp only [serve, k1, Option.map_some, Option.some.injEq, Prod.mk.injEq] at h2
        simp only [serve, k2, Option.map_some, Option.some.injEq, Prod.mk.injEq] at hr'
        rw [← h2.2, ← hr'.2, this]
      | write a w ex =>
        cases an with
        | wrote x => cases r2 with
          | wrote y => exact congrArg Answer.wrote (Eq.trans qe (Eq.symm qd))
          | value _ _ => exact qe.elim
          | done => exact qe.elim
        | value _ _ => exact qd.elim
        | done => exact qd.elim
      | reset =>
        cases an with
        | done => cases r2 with
          | done => rfl
          | value _ _ => exact qe.elim
          | wrote _ => exact qe.elim
        | value _ _ => exact qd.elim
        | wrote _ => exact qd.elim
    exact ⟨r.1, answers_snoc g1 (by rw [hr', ← hout])⟩

/-- **C129**. Take a board with any components, of which component `id` is an array of words (`WordMemory`: what `C64` proves of `Ram` and
`C66` of `PersistentMem`), any sequence of host calls which ends without panic, and another array of words of the same size with other initial
contents. If every read of the component's recorded session is of a word written before (or the component was reset before), or
of a word that is initially the same in both, then the board with the other array goes through the same run: same registers, mappings,
cycle count and state of the CPU, and the other components end the same. -/
theorem C129 {devs : List D} {s0 s' : Machine (Taped D)} {ops : List HostOp}
    (hb : newBoard pf (devs.map blank) = some s0) (h : hostRun pf ops s0 = some s') {id : Nat} {d0 e0 : D}
    (hd0 : devs[id]? = some d0) (hn : Bus.name d0 = Bus.name e0) (hmd : Bus.metadata pf d0 = Bus.metadata pf e0)
    {size : Nat} {init init' : Nat → Word} (hm : WordMemory pf d0 size init) (hm' : WordMemory pf e0 size init')
    (hread : ∀ d before a ex an after, s'.devs[id]? = some d → d.tape = before ++ (.read a ex, an) :: after →
      (∃ x ∈ before, ¬ x.1.Spares a) ∨ init (a.toNat / 4) = init' (a.toNat / 4)) :
    ∃ t0 t', newBoard pf (devs.set id e0) = some t0 ∧ hostRun pf ops t0 = some t' ∧ SameMachine s' t' ∧
      ∀ i, i ≠ id → t'.devs[i]? = (s'.devs[i]?).map (·.dev) := by
  refine replay_replaced hb h hd0 hn hmd fun d hd => ?_
  obtain ⟨_, _, hok⟩ := tape_history hb h hd0 hm hd
  obtain ⟨_, hw, _⟩ := hok rfl
  obtain ⟨d1, g1, g2⟩ := tape_serves hb h hd
  rw [hd0] at g1; cases g1
  have := wordMemory_follows hm hm' d.tape.reverse (by rw [List.reverse_reverse]; exact g2)
    (fun x hx => hw x.1 (List.mem_map.mpr ⟨x, List.mem_reverse.mp hx, rfl⟩))
    (fun before a ex an after hb => hread d before a ex an after hd (by rwa [List.reverse_reverse] at hb))
  rwa [List.reverse_reverse] at this

theorem bootRom_follows {r r' : BootRom} {p p' : List Word} {size : Word} {hw : U64} (h : BootRom.withSize p size hw = some r)
    (h' : BootRom.withSize p' size hw = some r') : ∀ (tape : List (Req × Answer)) {d : BootRom}, Answers r d tape →
    (∀ a ex an, (Req.read a ex, an) ∈ tape → (p[a.toNat / 4]?).getD 0 = (p'[a.toNat / 4]?).getD 0) → Answers r' r' tape := by
  have key : ∀ {r : BootRom} {p : List Word}, BootRom.withSize p size hw = some r → ∀ a ex,
      Bus.read r a ex = some (r, (p[a.toNat / 4]?).getD 0, ex) := by
    intro r p h a ex
    unfold BootRom.withSize at h
    split at h
    · cases h
    next hlt =>
    split at h
    · cases h
    split at h
    · cases h
    split at h
    · cases h
    injection h with h
    subst h
    show (if a / 4 < BitVec.ofNat 32 p.length then _ else _) = _
    have h4 : (a / 4).toNat = a.toNat / 4 := by rw [BitVec.toNat_udiv]; rfl
    have hl : (BitVec.ofNat 32 p.length).toNat = p.length := by
      rw [BitVec.toNat_ofNat]; exact Nat.mod_eq_of_lt (by omega)
    split
    · next hh =>
      rw [BitVec.lt_def, h4, hl] at hh
      rw [h4, List.getElem?_eq_getElem hh]; rfl
    · next hh =>
      rw [BitVec.lt_def, h4, hl] at hh
      rw [List.getElem?_eq_none_iff.mpr (by omega)]; rfl
  intro tape
  induction tape with
  | nil => intro d _ _; rfl
  | cons x tape ih =>
    obtain ⟨q, an⟩ := x
    intro d ha hr
    obtain ⟨r1, an', as, g1, g2, g3⟩ := serveAll_cons_inv ha
    simp only [List.map_cons, List.cons.injEq] at g3
    obtain ⟨rfl, rfl⟩ := g3
    have hs : r1 = r ∧ serve r' q = some (r', an) := by
      cases q with
      | read a ex =>
        simp only [serve, key h, key h', Option.map_some, Option.some.injEq, Prod.mk.injEq] at g1 ⊢
        exact ⟨g1.1.symm, trivial, by rw [← hr a ex an List.mem_cons_self]; exact g1.2⟩
      | write a w ex => cases g1; exact ⟨rfl, rfl⟩
      | reset => cases g1; exact ⟨rfl, rfl⟩
    obtain ⟨rfl, hs⟩ := hs
    exact serveAll_cons hs (ih g2 fun a ex an hm => hr a ex an (List.mem_cons_of_mem _ hm))

/-- **C129**, the boot program. Words of the boot ROM that a run does not read (code it does not reach, padding) do not matter: any run of a board
with the program `p` in its boot ROM (among components of any kinds) is the run of the board with the program `p'`, if all the reads of the
ROM's recorded session are of words that are the same in both programs (missing words are 0). -/
theorem C129_rom {devs : List (D ⊕ BootRom)} {s0 s' : Machine (Taped (D ⊕ BootRom))} {ops : List HostOp}
    (hb : newBoard pf (devs.map blank) = some s0) (h : hostRun pf ops s0 = some s') {id : Nat} {r r' : BootRom}
    (hd0 : devs[id]? = some (.inr r)) {p p' : List Word} {size : Word} {hw : U64} (hr : BootRom.withSize p size hw = some r)
    (hr' : BootRom.withSize p' size hw = some r')
    (hread : ∀ d a ex an, s'.devs[id]? = some d → (.read a ex, an) ∈ d.tape → (p[a.toNat / 4]?).getD 0 = (p'[a.toNat / 4]?).getD 0) :
    ∃ t0 t', newBoard pf (devs.set id (.inr r')) = some t0 ∧ hostRun pf ops t0 = some t' ∧ SameMachine s' t' ∧
      ∀ i, i ≠ id → t'.devs[i]? = (s'.devs[i]?).map (·.dev) := by
  have hsz : r.size = r'.size ∧ r.hwId = r'.hwId := by
    unfold BootRom.withSize at hr hr'
    split at hr; · cases hr
    split at hr; · cases hr
    split at hr; · cases hr
    split at hr; · cases hr
    split at hr'; · cases hr'
    split at hr'; · cases hr'
    cases hr; cases hr'; exact ⟨rfl, rfl⟩
  refine replay_replaced hb h hd0 rfl ?_ fun d hd => ?_
  · show (do let bytes ← pf.mul r.size 4
             let m ← DeviceMetadata.new r.hwId bytes (.storage .readonly) none none
             m.encode) = _
    rw [hsz.1, hsz.2]; rfl
  · obtain ⟨d1, g1, g2⟩ := tape_serves hb h hd
    rw [hd0] at g1; cases g1
    rw [Answers, serveAll_inr] at g2
    obtain ⟨x, k1, k2⟩ := Option.map_eq_some_iff.mp g2
    injection k2 with k2 k3
    have := bootRom_follows hr hr' d.tape (d := x.1) (by rw [Answers, k1, ← k3]) (fun a ex an hm => hread d a ex an hd hm)
    exact ⟨.inr r', by rw [Answers, serveAll_inr, this]; rfl⟩

/-- A program that stores 7 at 0x48 and loads it: on a board whose RAM contains 9 there and 5 in another place at power-on, the same run, as `C129` says. -/
example : ∃ (s0 s' : Machine (Taped Demo.Dev)) (e e' : Ram) (t0 t' : Machine Demo.Dev),
    Ram.fromWithSize [] 0x40 0x22 = some e ∧ Ram.fromWithSize [0, 5, 9] 0x40 0x22 = some e' ∧
    newBoard .debug ((Demo.devices [0xB0480007#32, 0xA0014800#32]).map blank) = some s0 ∧
    hostRun .debug [.mapContiguous 0 [0, 1], .cpuReset, .next, .next, .memRead 0x4C 0] s0 = some s' ∧ s'.cycles = 2 ∧
    newBoard .debug ((Demo.devices [0xB0480007#32, 0xA0014800#32]).set 1 (.inr e')) = some t0 ∧
    hostRun .debug [.mapContiguous 0 [0, 1], .cpuReset, .next, .next, .memRead 0x4C 0] t0 = some t' ∧ SameMachine s' t' := by
  have key : ∃ (s0 s' : Machine (Taped Demo.Dev)) (e e' : Ram) (d : Taped Demo.Dev),
    Ram.fromWithSize [] 0x40 0x22 = some e ∧ Ram.fromWithSize [0, 5, 9] 0x40 0x22 = some e' ∧
    newBoard .debug ((Demo.devices [0xB0480007#32, 0xA0014800#32]).map blank) = some s0 ∧
    hostRun .debug [.mapContiguous 0 [0, 1], .cpuReset, .next, .next, .memRead 0x4C 0] s0 = some s' ∧ s'.cycles = 2 ∧
    (Demo.devices [0xB0480007#32, 0xA0014800#32])[1]? = some (.inr e) ∧ s'.devs[1]? = some d ∧
    d.tape = [(.write 8 7 0, .wrote 0), (.read 8 0, .value 7 0), (.read 0xC 0, .value 0 0)] ∧
    Bus.metadata .debug e = Bus.metadata .debug e' := ⟨_, _, _, _, _, rfl, rfl, rfl, rfl, rfl, rfl, rfl, rfl, rfl⟩
  obtain ⟨s0, s', e, e', d, h1, h2, h3, h4, h5, h6, h7, h8, h9⟩ := key
  obtain ⟨t0, t', g1, g2, g3, _⟩ := C129 (e0 := .inr e') h3 h4 h6 rfl h9 (wordMemory_inr (C64_from_with_size h1))
    (wordMemory_inr (C64_from_with_size h2)) (by
      intro d' before a ex an after hd ht
      rw [h7] at hd; cases hd
      rw [h8] at ht
      match before, ht with
      | [], ht => cases ht
      | [x], ht =>
        injection ht with h1 h2
        injection h2 with h2
        cases h2
        subst h1
        exact .inl ⟨_, List.mem_cons_self, fun h => h rfl⟩
      | [x, y], ht =>
        injection ht with h1 h2
        injection h2 with h2 h3
        injection h3 with h3
        cases h3
        exact .inr (by decide)
      | x :: y :: z :: l, ht =>
        have := congrArg List.length ht
        simp at this)
  exact ⟨s0, s', e, e', t0, t', h1, h2, h3, h4, h5, g1, g2, g3⟩

/-- Two steps of a program, which do not reach its third word: with another third word and a fourth one, the same run, as `C129_rom` says. -/
example : ∃ (s0 s' : Machine (Taped (Ram ⊕ BootRom))) (r r' : BootRom) (t0 t' : Machine (Ram ⊕ BootRom)),
    BootRom.withSize [0x0F010000, 0x0F010000, 0x12345678] 0x40 0x11 = some r ∧
    BootRom.withSize [0x0F010000, 0x0F010000, 0xFFFFFFFF, 7] 0x40 0x11 = some r' ∧
    newBoard .debug ([Sum.inr r].map blank) = some s0 ∧
    hostRun .debug [.map 0 0, .reset, .next, .next, .memRead 0x10 0] s0 = some s' ∧ s'.cycles = 2 ∧
    newBoard .debug [Sum.inr r'] = some t0 ∧
    hostRun .debug [.map 0 0, .reset, .next, .next, .memRead 0x10 0] t0 = some t' ∧ SameMachine s' t' := by
  have key : ∃ (s0 s' : Machine (Taped (Ram ⊕ BootRom))) (r r' : BootRom) (d : Taped (Ram ⊕ BootRom)),
    BootRom.withSize [0x0F010000, 0x0F010000, 0x12345678] 0x40 0x11 = some r ∧
    BootRom.withSize [0x0F010000, 0x0F010000, 0xFFFFFFFF, 7] 0x40 0x11 = some r' ∧
    newBoard .debug ([Sum.inr r].map blank) = some s0 ∧
    hostRun .debug [.map 0 0, .reset, .next, .next, .memRead 0x10 0] s0 = some s' ∧ s'.cycles = 2 ∧ s'.devs[0]? = some d ∧
    d.tape = [(.reset, .done), (.read 0 0, .value 0x0F010000 0), (.read 4 0, .value 0x0F010000 0), (.read 0x10 0, .value 0 0)] :=
    ⟨_, _, _, _, _, rfl, rfl, rfl, rfl, rfl, rfl, rfl⟩
  obtain ⟨s0, s', r, r', d, h1, h2, h3, h4, h5, h6, h7⟩ := key
  obtain ⟨t0, t', g1, g2, g3, _⟩ := C129_rom h3 h4 (id := 0) rfl h1 h2 (by
    intro d' a ex an hd hm
    rw [h6] at hd; cases hd
    rw [h7] at hm
    simp only [List.mem_cons, Prod.mk.injEq, reduceCtorEq, false_and, false_or, Req.read.injEq, List.not_mem_nil, or_false] at hm
    rcases hm with ⟨⟨rfl, _⟩, _⟩ | ⟨⟨rfl, _⟩, _⟩ | ⟨⟨rfl, _⟩, _⟩ <;> decide)
  exact ⟨s0, s', r, r', t0, t', h1, h2, h3, h4, h5, g1, g2, g3⟩

end Lrvm
