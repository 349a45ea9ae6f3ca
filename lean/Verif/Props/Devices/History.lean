import Verif.Props.Devices.Memories
import Verif.Spec.Tape

/-!
# Memory inside a board: C105
-/

namespace Lrvm

open Spec

variable {D : Type} [Bus D] {pf : Profile}

/-- Either nothing has touched the word, or the last event that did is a write or a reset. -/
theorem wordAfter_cases (init : Nat → Word) (tape : List (Req × Answer)) (a : Word) :
    ((∀ r ∈ tape.map (·.1), r.Spares a) ∧ wordAfter init tape a = init (a.toNat / 4)) ∨
    (∃ rs w ex rs', tape.map (·.1) = rs ++ .write a w ex :: rs' ∧ (∀ r ∈ rs', r.Spares a) ∧ wordAfter init tape a = w) ∨
    (∃ rs rs', tape.map (·.1) = rs ++ .reset :: rs' ∧ (∀ r ∈ rs', r.Spares a) ∧ wordAfter init tape a = 0) := by
  have key : ∀ rev : List (Req × Answer), ((∀ r ∈ (rev.reverse).map (·.1), r.Spares a) ∧ wordAfter init rev.reverse a = init (a.toNat / 4)) ∨
    (∃ rs w ex rs', (rev.reverse).map (·.1) = rs ++ .write a w ex :: rs' ∧ (∀ r ∈ rs', r.Spares a) ∧ wordAfter init rev.reverse a = w) ∨
    (∃ rs rs', (rev.reverse).map (·.1) = rs ++ .reset :: rs' ∧ (∀ r ∈ rs', r.Spares a) ∧ wordAfter init rev.reverse a = 0) := by
    intro rev
    induction rev with
    | nil => exact .inl ⟨by simp, rfl⟩
    | cons e es ih =>
      have hspare : e.1.Spares a → wordAfter init (e :: es).reverse a = wordAfter init es.reverse a →
          ((∀ r ∈ ((e :: es).reverse).map (·.1), r.Spares a) ∧ wordAfter init (e :: es).reverse a = init (a.toNat / 4)) ∨
          (∃ rs w ex rs', ((e :: es).reverse).map (·.1) = rs ++ .write a w ex :: rs' ∧ (∀ r ∈ rs', r.Spares a) ∧
            wordAfter init (e :: es).reverse a = w) ∨
          (∃ rs rs', ((e :: es).reverse).map (·.1) = rs ++ .reset :: rs' ∧ (∀ r ∈ rs', r.Spares a) ∧
            wordAfter init (e :: es).reverse a = 0) := by
        intro hs he
        rw [he]
        have hm : ((e :: es).reverse).map (·.1) = (es.reverse).map (·.1) ++ [e.1] := by simp
        rw [hm]
        rcases ih with ⟨h1, h2⟩ | ⟨rs, w, ex, rs', h1, h2, h3⟩ | ⟨rs, rs', h1, h2, h3⟩
        · refine .inl ⟨?_, h2⟩
          intro r hr
          rcases List.mem_append.mp hr with hr | hr
          · exact h1 r hr
          · rw [List.mem_singleton] at hr; subst hr; exact hs
        · refine .inr (.inl ⟨rs, w, ex, rs' ++ [e.1], by rw [h1]; simp, ?_, h3⟩)
          intro r hr
          rcases List.mem_append.mp hr with hr | hr
          · exact h2 r hr
          · rw [List.mem_singleton] at hr; subst hr; exact hs
        · refine .inr (.inr ⟨rs, rs' ++ [e.1], by rw [h1]; simp, ?_, h3⟩)
          intro r hr
          rcases List.mem_append.mp hr with hr | hr
          · exact h2 r hr
          · rw [List.mem_singleton] at hr; subst hr; exact hs
      obtain ⟨r, an⟩ := e
      cases r with
      | read b ex => exact hspare trivial (by simp [wordAfter])
      | write b w ex =>
        by_cases hb : b = a
        · subst hb
          refine .inr (.inl ⟨(es.reverse).map (·.1), w, ex, [], by simp, by simp, by simp [wordAfter]⟩)
        · exact hspare hb (by simp [wordAfter, hb])
      | reset => exact .inr (.inr ⟨(es.reverse).map (·.1), [], by simp, by simp, by simp [wordAfter]⟩)
  have := key tape.reverse
  rwa [List.reverse_reverse] at this

/-- What an array of words answers to a read after a history. -/
theorem wordMemory_read_after {d d' : D} {size : Nat} {init : Nat → Word} (hm : WordMemory pf d size init)
    {tape : List (Req × Answer)} {as : List Answer} (hr : ∀ r ∈ tape.map (·.1), r.Within size)
    (h : serveAll d (tape.map (·.1)) = some (d', as)) {a : Word} (ha : a.toNat % 4 = 0) (hlt : a.toNat < size) (ex : U16) :
    Bus.read d' a ex = some (d', wordAfter init tape a, ex) := by
  rcases wordAfter_cases init tape a with ⟨h1, h2⟩ | ⟨rs, w, ex0, rs', h1, h2, h3⟩ | ⟨rs, rs', h1, h2, h3⟩
  · rw [h2]; exact hm.initial _ a ex d' as hr h1 ha hlt h
  · rw [h3]; rw [h1] at hr h; exact hm.written rs rs' a w ex ex0 d' as hr h2 h
  · rw [h3]; rw [h1] at hr h; exact hm.zeroed rs rs' a ex d' as hr h2 ha hlt h

/-- Every read of the tape got the word its past tells. -/
def TapeFaithful (init : Nat → Word) (tape : List (Req × Answer)) : Prop :=
  ∀ before after q an, tape = before ++ (q, an) :: after → Quiet q an ∧
    ∀ a ex w ex', q = .read a ex → an = .value w ex' → w = wordAfter init before a

theorem TapeFaithful.snoc {init : Nat → Word} {tape : List (Req × Answer)} (h : TapeFaithful init tape) {q : Req} {an : Answer}
    (hq : Quiet q an) (hr : ∀ a ex w ex', q = .read a ex → an = .value w ex' → w = wordAfter init tape a) :
    TapeFaithful init (tape ++ [(q, an)]) := by
  intro before after q' an' he
  rcases List.eq_nil_or_concat after with rfl | ⟨l, x, rfl⟩
  · have : tape ++ [(q, an)] = before ++ [(q', an')] := he
    obtain ⟨h1, h2⟩ := List.append_inj' this rfl
    simp only [List.cons.injEq, Prod.mk.injEq, and_true] at h2
    obtain ⟨rfl, rfl⟩ := h2
    subst h1
    exact ⟨hq, hr⟩
  · have : tape ++ [(q, an)] = (before ++ (q', an') :: l) ++ [x] := by rw [he]; simp
    obtain ⟨h1, _⟩ := List.append_inj' this rfl
    exact h before l q' an' h1

/-- What is kept about component `id` of the board. -/
def TapeOk (d0 : D) (size : Nat) (init : Nat → Word) (id i : Nat) (d : Taped D) : Prop :=
  i = id → (∃ as, serveAll d0 (d.tape.map (·.1)) = some (d.dev, as)) ∧ (∀ r ∈ d.tape.map (·.1), r.Within size) ∧
    TapeFaithful init d.tape

theorem TapeOk.snoc {d0 : D} {size : Nat} {init : Nat → Word} (hm : WordMemory pf d0 size init) {d : Taped D} {d' : D}
    (h : TapeOk d0 size init 0 0 d) {q : Req} {an : Answer} (hs : serve d.dev q = some (d', an)) (hw : q.Within size) :
    TapeOk d0 size init 0 0 ⟨d', d.tape ++ [(q, an)]⟩ := by
  intro _
  obtain ⟨⟨as, h1⟩, h2, h3⟩ := h rfl
  have hall : ∀ r ∈ (d.tape ++ [(q, an)]).map (·.1), r.Within size := by
    intro r hr
    rw [List.map_append] at hr
    rcases List.mem_append.mp hr with hr | hr
    · exact h2 r hr
    · simp only [List.map_cons, List.map_nil, List.mem_singleton] at hr
      subst hr; exact hw
  have hserve : serveAll d0 ((d.tape ++ [(q, an)]).map (·.1)) = some (d', as ++ [an]) := by
    rw [List.map_append]
    exact serveAll_append h1 (serveAll_cons hs (serveAll_nil d'))
  refine ⟨⟨_, hserve⟩, hall, h3.snoc ?_ ?_⟩
  · obtain ⟨d2, as2, g1, _, g3⟩ := hm.serves _ hall
    rw [hserve] at g1
    cases g1
    rw [List.map_append] at g3
    have : ∀ (rs : List Req) (as : List Answer) q an, AllQuiet (rs ++ [q]) (as ++ [an]) → Quiet q an := by
      intro rs
      induction rs with
      | nil =>
        intro as q an h
        cases as with
        | nil => exact h.1
        | cons a as => cases as <;> exact h.2.elim
      | cons r rs ih =>
        intro as q an h
        cases as with
        | nil => cases rs <;> exact h.2.elim
        | cons a as => exact ih as q an h.2
    exact this _ _ _ _ g3
  · rintro a ex w ex' rfl rfl
    have hr := wordMemory_read_after hm h2 h1 hw.1 hw.2 ex
    have hs' : (Bus.read d.dev a ex).map (fun (d', w, ex') => (d', Answer.value w ex')) = some (d', .value w ex') := hs
    rw [hr] at hs'
    simp only [Option.map_some, Option.some.injEq, Prod.mk.injEq, Answer.value.injEq] at hs'
    exact hs'.2.1.symm

theorem tape_devInv {d0 : D} {size : Nat} {init : Nat → Word} (hm : WordMemory pf d0 size init) {id : Nat}
    {cache : List AuxCache} (hc : ∀ a, InRange cache id a → a.toNat % 4 = 0 ∧ a.toNat < size) :
    DevInv (D := Taped D) (TapeOk d0 size init id) cache where
  read := by
    intro i d a ex d' w ex' hP hr h hi
    subst hi
    have h : (Bus.read d.dev a ex).map (fun p => ((⟨p.1, d.tape ++ [(Req.read a ex, Answer.value p.2.1 p.2.2)]⟩ : Taped D),
      p.2.1, p.2.2)) = some (d', w, ex') := h
    obtain ⟨p, h1, h2⟩ := Option.map_eq_some_iff.mp h
    injection h2 with h2 h3
    subst h2
    exact TapeOk.snoc hm (fun _ => hP rfl) (by simp only [serve, h1]; rfl) (hc a hr) rfl
  write := by
    intro i d a w ex d' ex' hP hr h hi
    subst hi
    have h : (Bus.write d.dev a w ex).map (fun p => ((⟨p.1, d.tape ++ [(Req.write a w ex, Answer.wrote p.2)]⟩ : Taped D),
      p.2)) = some (d', ex') := h
    obtain ⟨p, h1, h2⟩ := Option.map_eq_some_iff.mp h
    injection h2 with h2 h3
    subst h2
    exact TapeOk.snoc hm (fun _ => hP rfl) (by simp only [serve, h1]; rfl) (hc a hr) rfl
  reset := by
    intro i d d' hP h hi
    subst hi
    have h : (Bus.reset d.dev).map (fun p => (⟨p, d.tape ++ [(Req.reset, Answer.done)]⟩ : Taped D)) = some d' := h
    obtain ⟨p, h1, h2⟩ := Option.map_eq_some_iff.mp h
    subst h2
    exact TapeOk.snoc hm (fun _ => hP rfl) (by simp only [serve, h1]; rfl) trivial rfl

theorem tape_history {devs : List D} {s0 s' : Machine (Taped D)} {ops : List HostOp}
    (hb : newBoard pf (devs.map blank) = some s0) (h : hostRun pf ops s0 = some s')
    {id : Nat} {d0 : D} (hd0 : devs[id]? = some d0) {size : Nat} {init : Nat → Word} (hm : WordMemory pf d0 size init)
    {d : Taped D} (hd : s'.devs[id]? = some d) :
    Placed s0.memCache s'.mappings ∧ (∃ c, s0.memCache[id]? = some c ∧ c.size.toNat = size) ∧ TapeOk d0 size init id id d := by
  obtain ⟨hc, _, hdv, hmap, _⟩ := newBoard_inv hb
  obtain ⟨_, hg⟩ := createCaches_get hc
  obtain ⟨c, md, hci, hmd, _, hsz, _⟩ := hg id (blank d0) (by simp [hd0])
  have hsize : c.size.toNat = size := by
    obtain ⟨d2, as, h1, ⟨md', h2, h3⟩, _⟩ := hm.serves [] (by simp)
    cases h1
    have : Bus.metadata pf d0 = some md := hmd
    rw [this] at h2
    cases h2
    rw [hsz, h3]
  have hinr : ∀ a, InRange s0.memCache id a → a.toNat % 4 = 0 ∧ a.toNat < size := by
    rintro a ⟨h4, c', hc', hlt⟩
    rw [hci] at hc'; cases hc'
    exact ⟨h4, hsize ▸ hlt⟩
  obtain ⟨_, hpl, hdev⟩ := hostRun_devInv (tape_devInv hm hinr) (by rw [hmap]; intro m hm; cases hm)
    (by
      rw [hdv]; intro i e he hi
      subst hi
      rw [List.getElem?_map, hd0] at he
      cases he
      exact ⟨⟨[], rfl⟩, by simp [blank], by
        intro before after q an he
        have := congrArg List.length he
        simp [blank] at this⟩) h
  exact ⟨hpl, ⟨c, hci, hsize⟩, hdev id d hd⟩

/-- **C105**. Take a board built with any components, of which component `id` is an array of words (`WordMemory`: what
`C64` proves of `Ram` and `C66` of `PersistentMem`), and any history of host calls: steps of whatever program the
memory contains, resets, mapping calls, direct accesses, register changes. Every request component `id` received was
answered without exception, and every read got the last word written there since the component's last reset, 0 if
there is none since that reset, or the initial word. -/
theorem C105 {devs : List D} {s0 s' : Machine (Taped D)} {ops : List HostOp}
    (hb : newBoard pf (devs.map blank) = some s0) (h : hostRun pf ops s0 = some s')
    {id : Nat} {d0 : D} (hd0 : devs[id]? = some d0) {size : Nat} {init : Nat → Word} (hm : WordMemory pf d0 size init)
    {d : Taped D} (hd : s'.devs[id]? = some d) {before after : List (Req × Answer)} {q : Req} {an : Answer}
    (ht : d.tape = before ++ (q, an) :: after) :
    Quiet q an ∧ ∀ a ex w ex', q = .read a ex → an = .value w ex' → w = wordAfter init before a :=
  ((tape_history hb h hd0 hm hd).2.2 rfl).2.2 before after q an ht

/-- **C105**, the next read: at every aligned address the component covers, the board reads the last word the history
wrote into the component there, and no exception. -/
theorem C105_next {devs : List D} {s0 s' : Machine (Taped D)} {ops : List HostOp}
    (hb : newBoard pf (devs.map blank) = some s0) (h : hostRun pf ops s0 = some s')
    {id : Nat} {d0 : D} (hd0 : devs[id]? = some d0) {size : Nat} {init : Nat → Word} (hm : WordMemory pf d0 size init)
    {d : Taped D} (hd : s'.devs[id]? = some d) (ht : TableOk pf s'.mappings) {m : Mapping} (hmm : m ∈ s'.mappings)
    (hmid : m.auxId = id) {a : Word} (hc : covers m a) (ha : a.toNat % 4 = 0) (ex : U16) :
    ∃ s'', memRead pf s' a ex = some (wordAfter init d.tape (a - m.addr), ex, s'') := by
  obtain ⟨hpl, ⟨c, hci, hsize⟩, hok⟩ := tape_history hb h hd0 hm hd
  obtain ⟨⟨as, h1⟩, h2, _⟩ := hok rfl
  obtain ⟨h4, _, c', hc', hsz⟩ := hpl m hmm
  rw [hmid, hci] at hc'; cases hc'
  obtain ⟨ho, hr⟩ := C37_read (ex := ex) ht hmm hc ha (hmid ▸ hd)
  have hc2 := hc.2
  have hread := wordMemory_read_after hm (a := a - m.addr) h2 h1 (by rw [ho]; have := hc.1; omega) (by rw [ho]; rw [hsz, hsize] at hc2; have := hc.1; omega) ex
  have hread' : Bus.read d (a - m.addr) ex = some (⟨d.dev, d.tape ++ [(.read (a - m.addr) ex, .value (wordAfter init d.tape (a - m.addr)) ex)]⟩,
      wordAfter init d.tape (a - m.addr), ex) := by
    show (Bus.read d.dev (a - m.addr) ex).map _ = _
    rw [hread]; rfl
  rw [hread'] at hr
  exact ⟨_, hr⟩

/-! ### Components among others -/

theorem serveAll_inr {E : Type} [Bus E] (e : E) (rs : List Req) :
    serveAll (D := D ⊕ E) (.inr e) rs = (serveAll e rs).map fun p => (.inr p.1, p.2) := by
  induction rs generalizing e with
  | nil => rfl
  | cons r rs ih =>
    have hs : serve (D := D ⊕ E) (.inr e) r = (serve e r).map fun p => (.inr p.1, p.2) := by
      cases r with
      | read a ex =>
        show ((Bus.read e a ex).map _).map _ = ((Bus.read e a ex).map _).map _
        cases Bus.read e a ex <;> rfl
      | write a w ex =>
        show ((Bus.write e a w ex).map _).map _ = ((Bus.write e a w ex).map _).map _
        cases Bus.write e a w ex <;> rfl
      | reset =>
        show ((Bus.reset e).map _).map _ = ((Bus.reset e).map _).map _
        cases Bus.reset e <;> rfl
    simp only [serveAll, hs]
    cases serve e r with
    | none => rfl
    | some p =>
      simp only [Option.map_some, Option.bind_eq_bind, Option.bind_some, ih]
      cases serveAll p.1 rs <;> rfl

/-- An array of words is one whatever the kinds of the board's other components. -/
theorem wordMemory_inr {E : Type} [Bus E] {e : E} {size : Nat} {init : Nat → Word} (h : WordMemory pf e size init) :
    WordMemory (D := D ⊕ E) pf (.inr e) size init where
  serves rs hr := by
    obtain ⟨d', as, h1, ⟨md, h2, h3⟩, h4⟩ := h.serves rs hr
    exact ⟨.inr d', as, by rw [serveAll_inr, h1]; rfl, ⟨md, h2, h3⟩, h4⟩
  written rs rs' a w ex ex' d' as hr hs hh := by
    rw [serveAll_inr] at hh
    obtain ⟨p, h1, h2⟩ := Option.map_eq_some_iff.mp hh
    cases h2
    show (Bus.read p.1 a ex).map _ = _
    rw [h.written rs rs' a w ex ex' p.1 p.2 hr hs h1]; rfl
  zeroed rs rs' a ex d' as hr hs ha hlt hh := by
    rw [serveAll_inr] at hh
    obtain ⟨p, h1, h2⟩ := Option.map_eq_some_iff.mp hh
    cases h2
    show (Bus.read p.1 a ex).map _ = _
    rw [h.zeroed rs rs' a ex p.1 p.2 hr hs ha hlt h1]; rfl
  initial rs a ex d' as hr hs ha hlt hh := by
    rw [serveAll_inr] at hh
    obtain ⟨p, h1, h2⟩ := Option.map_eq_some_iff.mp hh
    cases h2
    show (Bus.read p.1 a ex).map _ = _
    rw [h.initial rs a ex p.1 p.2 hr hs ha hlt h1]; rfl

/-- **C105** for a RAM built with any of its constructors, among components of any kinds. -/
theorem C105_ram {devs : List (D ⊕ Ram)} {s0 s' : Machine (Taped (D ⊕ Ram))} {ops : List HostOp}
    (hb : newBoard pf (devs.map blank) = some s0) (h : hostRun pf ops s0 = some s')
    {id : Nat} {e : Ram} (hd0 : devs[id]? = some (.inr e)) {init : Nat → Word} {size : Word} {hw : U64} {st : List Word}
    (hnew : (Ram.new size hw = some e ∧ init = fun _ => 0) ∨
      ((Ram.from st hw = some e ∨ Ram.fromWithSize st size hw = some e) ∧ init = fun i => (st[i]?).getD 0))
    {d : Taped (D ⊕ Ram)} (hd : s'.devs[id]? = some d) {before after : List (Req × Answer)} {a w : Word} {ex ex' : U16}
    (ht : d.tape = before ++ (.read a ex, .value w ex') :: after) : w = wordAfter init before a ∧ ex' = ex := by
  have key : ∀ size', WordMemory pf e size' init → w = wordAfter init before a ∧ ex' = ex := fun size' hm =>
    have := C105 hb h hd0 (wordMemory_inr hm) hd ht
    ⟨this.2 a ex w ex' rfl rfl, this.1⟩
  rcases hnew with ⟨h, rfl⟩ | ⟨h | h, rfl⟩
  · exact key _ (C64_new h)
  · exact key _ (C64_from h)
  · exact key _ (C64_from_with_size h)

/-- A program that stores 7 at 0x48, loads it, then a reset of the board, a direct write at 0x7C and direct reads of both
words: the RAM's tape, and what `C105` says of its second request and `C105_next` of address 0x7C. -/
example : ∃ (s0 s' : Machine (Taped Demo.Dev)) (d : Taped Demo.Dev) (e : Ram),
    Ram.fromWithSize [] 0x40 0x22 = some e ∧
    (Demo.devices [0xB0480007#32, 0xA0014800#32])[1]? = some (.inr e) ∧
    newBoard .debug ((Demo.devices [0xB0480007#32, 0xA0014800#32]).map blank) = some s0 ∧
    hostRun .debug [.mapContiguous 0 [0, 1], .cpuReset, .next, .next, .reset, .memWrite 0x7C 5 0, .memRead 0x48 0,
      .memRead 0x7C 9] s0 = some s' ∧
    s'.devs[1]? = some d ∧
    d.tape = [(.write 8 7 0, .wrote 0), (.read 8 0, .value 7 0), (.reset, .done), (.write 0x3C 5 0, .wrote 0),
      (.read 8 0, .value 0 0), (.read 0x3C 9, .value 5 9)] ∧
    wordAfter (fun _ => 0) [(.write 8 7 0, .wrote 0)] 8 = 7 ∧ wordAfter (fun _ => 0) d.tape 8 = 0 ∧
    wordAfter (fun _ => 0) d.tape 0x3C = 5 ∧
    s'.mappings = [⟨0, 0x11, 0, 0x40⟩, ⟨1, 0x22, 0x40, 0x40⟩] := ⟨_, _, _, _, rfl, rfl, rfl, rfl, rfl, rfl, rfl, rfl, rfl, rfl⟩

end Lrvm
