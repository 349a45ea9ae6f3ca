import Verif.Props.Devices.Sessions
import Verif.Spec.Crashes

/-!
# A crash damages at most the word being written: C136
-/

namespace Lrvm

open Spec

variable {D : Type} [Bus D] {pf : Profile}

/-- What is kept about component `id`: it is the initial one after the requests of its tape, which got these answers, and the
request it stopped at, if any, is at a multiple of 4. -/
def StoppingServed (d0 : D) (id i : Nat) (d : Stopping D) : Prop :=
  i = id → serveAll d0 (d.tape.map (·.1)) = some (d.dev, d.tape.map (·.2)) ∧ (∀ r ∈ d.tape.map (·.1), r.Aligned) ∧
    ∀ q, d.during = some q → q.Aligned

theorem StoppingServed.snoc {d0 : D} {d : Stopping D} {d' : D} (h : StoppingServed d0 0 0 d) {q : Req} {an : Answer} (n : Nat)
    (hs : serve d.dev q = some (d', an)) (hw : q.Aligned) : StoppingServed d0 0 0 ⟨d', d.tape ++ [(q, an)], n, none⟩ := by
  intro _
  obtain ⟨h1, h2, -⟩ := h rfl
  refine ⟨?_, ?_, fun q hq => by cases hq⟩
  · rw [List.map_append, List.map_append]
    exact serveAll_append h1 (serveAll_cons hs (serveAll_nil d'))
  · intro r hr
    rw [List.map_append] at hr
    rcases List.mem_append.mp hr with hr | hr
    · exact h2 r hr
    · simp only [List.map_cons, List.map_nil, List.mem_singleton] at hr
      subst hr; exact hw

theorem StoppingServed.stop {d0 : D} {d : Stopping D} (h : StoppingServed d0 0 0 d) {q : Req} (hw : q.Aligned) :
    StoppingServed d0 0 0 { d with during := d.during.or (some q) } := by
  intro _
  obtain ⟨h1, h2, h3⟩ := h rfl
  refine ⟨h1, h2, fun q' hq => ?_⟩
  have hq : d.during.or (some q) = some q' := hq
  cases hd : d.during with
  | none => rw [hd] at hq; cases hq; exact hw
  | some x => rw [hd] at hq; cases hq; exact h3 _ hd

theorem stopping_devInv (d0 : D) (id : Nat) (cache : List AuxCache) :
    DevInv (D := Stopping D) (StoppingServed d0 id) cache where
  read := by
    rintro i ⟨dev, tape, left, during⟩ a ex d' w ex' hP hr h hi
    subst hi
    cases left with
    | zero =>
      have h : some ((⟨dev, tape, 0, during.or (some (.read a ex))⟩ : Stopping D), (0 : Word), ex) = some (d', w, ex') := h
      cases h
      exact StoppingServed.stop (fun _ => hP rfl) (q := .read a ex) hr.1 rfl
    | succ n =>
      have h : (Bus.read dev a ex).map (fun p => ((⟨p.1, tape ++ [(Req.read a ex, Answer.value p.2.1 p.2.2)], n, none⟩ :
        Stopping D), p.2.1, p.2.2)) = some (d', w, ex') := h
      obtain ⟨p, h1, h2⟩ := Option.map_eq_some_iff.mp h
      injection h2 with h2 h3
      subst h2
      exact StoppingServed.snoc (fun _ => hP rfl) n (q := .read a ex) (by simp only [serve, h1]; rfl) hr.1 rfl
  write := by
    rintro i ⟨dev, tape, left, during⟩ a w ex d' ex' hP hr h hi
    subst hi
    cases left with
    | zero =>
      have h : some ((⟨dev, tape, 0, during.or (some (.write a w ex))⟩ : Stopping D), ex) = some (d', ex') := h
      cases h
      exact StoppingServed.stop (fun _ => hP rfl) (q := .write a w ex) hr.1 rfl
    | succ n =>
      have h : (Bus.write dev a w ex).map (fun p => ((⟨p.1, tape ++ [(Req.write a w ex, Answer.wrote p.2)], n, none⟩ :
        Stopping D), p.2)) = some (d', ex') := h
      obtain ⟨p, h1, h2⟩ := Option.map_eq_some_iff.mp h
      injection h2 with h2 h3
      subst h2
      exact StoppingServed.snoc (fun _ => hP rfl) n (q := .write a w ex) (by simp only [serve, h1]; rfl) hr.1 rfl
  reset := by
    rintro i ⟨dev, tape, left, during⟩ d' hP h hi
    subst hi
    cases left with
    | zero =>
      have h : some (⟨dev, tape, 0, during.or (some .reset)⟩ : Stopping D) = some d' := h
      cases h
      exact StoppingServed.stop (fun _ => hP rfl) (q := .reset) trivial rfl
    | succ n =>
      have h : (Bus.reset dev).map (fun p => (⟨p, tape ++ [(Req.reset, Answer.done)], n, none⟩ : Stopping D)) = some d' := h
      obtain ⟨p, h1, h2⟩ := Option.map_eq_some_iff.mp h
      subst h2
      exact StoppingServed.snoc (fun _ => hP rfl) n (q := .reset) (by simp only [serve, h1]; rfl) trivial rfl

/-- A stopping component on a board: what it is when it stops. -/
theorem board_stopping {devs : List (Stopping D)} {s0 s' : Machine (Stopping D)} {ops : List HostOp}
    (hb : newBoard pf devs = some s0) (h : hostRun pf ops s0 = some s') {id n : Nat} {d0 : D}
    (hd0 : devs[id]? = some ⟨d0, [], n, none⟩) {d : Stopping D} (hd : s'.devs[id]? = some d) :
    serveAll d0 (d.tape.map (·.1)) = some (d.dev, d.tape.map (·.2)) ∧ (∀ r ∈ d.tape.map (·.1), r.Aligned) ∧
      ∀ q, d.during = some q → q.Aligned := by
  obtain ⟨_, _, hdv, hmap, _⟩ := newBoard_inv hb
  obtain ⟨_, _, hdev⟩ := hostRun_devInv (stopping_devInv d0 id s0.memCache) (by rw [hmap]; intro m hm; cases hm)
    (by
      rw [hdv]; intro i e he hi
      subst hi
      rw [hd0] at he
      cases he
      exact ⟨rfl, by simp, fun q hq => by cases hq⟩) h
  exact hdev id d hd rfl

theorem crash_served {file file' : List U8} {broken : Nat → Bool} {wr : Bool} {tape : List (Req × Answer)} {q : Req} {k : Nat}
    (h : Crash file broken wr tape q k file') : ∃ d : FileBackedMem,
      Stores file broken wr (kept wr (tape.map (·.1))) d ∧ q.Aligned ∧ StoppedDuring d q k file' := by
  obtain ⟨pf, D, _, devs, id, hw, d0, d, n, s0, s', ops, ho, hd0, hb, hrun, hd, hf⟩ := h
  obtain ⟨h1, h2, h3⟩ := board_stopping hb hrun hd0 hd
  refine ⟨d, ?_, h3 q rfl, hf⟩
  rw [serveAll_inr] at h1
  obtain ⟨⟨d1, as⟩, h4, h5⟩ := Option.map_eq_some_iff.mp h1
  injection h5 with h5 h6
  injection h5 with h5
  have := (stores_open ho).run h2 h4
  rw [List.nil_append] at this
  rw [← h5]; exact this

/-! ### A cut write -/

theorem mixed_zero (new old : Word) : mixed 0 new old = old := by
  have h1 := new.isLt; have h2 := old.isLt
  apply BitVec.eq_of_toNat_eq
  unfold mixed
  rw [BitVec.toNat_ofNat]
  show (new.toNat / 4294967296 * 4294967296 + old.toNat % 4294967296) % 4294967296 = _
  omega

theorem overwrite_nil {file : List U8} {a : Nat} (h : a ≤ file.length) : overwrite file a [] = file := by
  unfold overwrite
  rw [show a - file.length = 0 by omega]
  simp

/-- The first `k` bytes of an aligned word are overwritten. -/
theorem overwrite_cut {file : List U8} {a : Nat} (ha : a % 4 = 0) (hl : a + 4 ≤ file.length) (w : Word) {k : Nat} (hk : k ≤ 4)
    (i : Nat) : wordAt (overwrite file a ((beBytes 4 w).take k)) i =
      if i = a / 4 then mixed k w (wordAt file i) else wordAt file i := by
  have h4 : ((beBytes 4 w).take k).length = k := by rw [List.length_take]; show min k 4 = k; omega
  have hp : ∀ j, paddedByte (overwrite file a ((beBytes 4 w).take k)) j =
      if a ≤ j ∧ j < a + k then w.toNat / 256 ^ (3 - (j - a)) % 256 else paddedByte file j := by
    intro j
    unfold paddedByte
    rw [overwrite_get (by rw [h4]; omega), h4]
    split
    · rw [List.getElem?_take_of_lt (by omega), beBytes_padded w _ (by omega)]; rfl
    · rfl
  have hw := w.isLt
  apply BitVec.eq_of_toNat_eq
  rw [wordAt_toNat]
  simp only [hp]
  by_cases hi : i = a / 4
  · subst hi
    rw [if_pos rfl]
    have e0 := paddedByte_lt file (4 * (a / 4)); have e1 := paddedByte_lt file (4 * (a / 4) + 1)
    have e2 := paddedByte_lt file (4 * (a / 4) + 2); have e3 := paddedByte_lt file (4 * (a / 4) + 3)
    have ho := wordAt_toNat file (a / 4)
    unfold mixed
    rw [ho, show 3 - (4 * (a / 4) - a) = 3 by omega, show 3 - (4 * (a / 4) + 1 - a) = 2 by omega,
      show 3 - (4 * (a / 4) + 2 - a) = 1 by omega, show 3 - (4 * (a / 4) + 3 - a) = 0 by omega, BitVec.toNat_ofNat]
    generalize paddedByte file (4 * (a / 4)) = b0 at *
    generalize paddedByte file (4 * (a / 4) + 1) = b1 at *
    generalize paddedByte file (4 * (a / 4) + 2) = b2 at *
    generalize paddedByte file (4 * (a / 4) + 3) = b3 at *
    have : 4 * (a / 4) = a := by omega
    rw [this]
    match k, hk with
    | 0, _ => rw [show (256 : Nat) ^ (4 - 0) = 4294967296 from rfl]; split <;> split <;> split <;> split <;> omega
    | 1, _ => rw [show (256 : Nat) ^ (4 - 1) = 16777216 from rfl]; split <;> split <;> split <;> split <;> omega
    | 2, _ => rw [show (256 : Nat) ^ (4 - 2) = 65536 from rfl]; split <;> split <;> split <;> split <;> omega
    | 3, _ => rw [show (256 : Nat) ^ (4 - 3) = 256 from rfl]; split <;> split <;> split <;> split <;> omega
    | 4, _ => rw [show (256 : Nat) ^ (4 - 4) = 1 from rfl]; split <;> split <;> split <;> split <;> omega
  · rw [if_neg hi, if_neg (by omega), if_neg (by omega), if_neg (by omega), if_neg (by omega), wordAt_toNat]

/-! ### The claim -/

theorem wordAfterEvents_append (file : List U8) (es es' : List FileEvent) (i : Nat) :
    wordAfterEvents file (es ++ es') i = es'.foldl (FileEvent.apply i) (wordAfterEvents file es i) := by
  unfold wordAfterEvents
  rw [List.foldl_append]

theorem storedAfter_events (file : List U8) (rs : List Req) (i : Nat) :
    wordAfterEvents file (rs.map .answered) i = storedAfter file rs i := by
  suffices h : ∀ l : List Req, wordAfterEvents file (l.reverse.map .answered) i = storedAfter file l.reverse i by
    have := h rs.reverse
    rwa [List.reverse_reverse] at this
  intro l
  induction l with
  | nil => exact (storedAfter_nil file i).symm
  | cons r l ih =>
    rw [List.reverse_cons, List.map_append, wordAfterEvents_append, ih]
    cases r with
    | read a ex => exact (storedAfter_snoc_other (by intro _ _ _ h; cases h)).symm
    | reset => exact (storedAfter_snoc_other (by intro _ _ _ h; cases h)).symm
    | write b w ex =>
      show (if b.toNat = 4 * i then w else _) = _
      by_cases hb : b.toNat = 4 * i
      · rw [if_pos hb]
        simp [storedAfter, lastWritten, hb]
      · rw [if_neg hb, storedAfter_snoc_other]
        intro b' w' ex' he
        injection he with he
        rw [← he]; exact hb

/-- The events a machine that stops during a request adds, if it opened the file for writing. -/
theorem crash_words {file file' : List U8} {broken : Nat → Bool} {wr : Bool} {tape : List (Req × Answer)} {q : Req} {k : Nat}
    (h : Crash file broken wr tape q k file') : file'.length = file.length ∧
      (∀ i, 4 * i + 4 ≤ file.length → wordAt file' i =
        if wr then (cutShort q k).foldl (FileEvent.apply i) (storedAfter file (tape.map (·.1)) i) else wordAt file i) ∧
      ∀ j, file.length / 4 * 4 ≤ j → file'[j]? = file[j]? := by
  obtain ⟨d, hs, hq, hd⟩ := crash_served h
  have same : file' = d.file → (∀ i, (cutShort q k).foldl (FileEvent.apply i) (storedAfter file (tape.map (·.1)) i) =
      storedAfter file (tape.map (·.1)) i) ∨ wr = false → file'.length = file.length ∧
      (∀ i, 4 * i + 4 ≤ file.length → wordAt file' i =
        if wr then (cutShort q k).foldl (FileEvent.apply i) (storedAfter file (tape.map (·.1)) i) else wordAt file i) ∧
      ∀ j, file.length / 4 * 4 ≤ j → file'[j]? = file[j]? := by
    rintro rfl hc
    refine ⟨hs.length, fun i hi => (hs.words i hi).trans ?_, hs.rest⟩
    cases wr with
    | true =>
      rcases hc with hc | hc
      · rw [if_pos rfl, hc i, kept, if_pos rfl]
      · cases hc
    | false => rw [if_neg Bool.false_ne_true, kept, if_neg Bool.false_ne_true, storedAfter_nil]
  cases q with
  | read a ex => exact same hd.2 (.inl fun _ => rfl)
  | reset => exact same hd.2 (.inl fun _ => rfl)
  | write a w ex =>
    have ha : a.toNat % 4 = 0 := hq
    cases hd with
    | before =>
      refine same rfl (.inl fun i => ?_)
      show (if a.toNat = 4 * i then mixed 0 w _ else _) = _
      split
      · exact mixed_zero _ _
      · rfl
    | during hw hl _ hk =>
      have hwr : wr = true := hs.writable ▸ hw
      subst hwr
      have hl : a.toNat < d.realSize.toNat := hl
      have hal := hs.inv.aligned; have hin := hs.inv.inside; have hsz := hs.size; have hlen := hs.length
      have h4 : ((beBytes 4 w).take k).length = k := by rw [List.length_take]; show min k 4 = k; omega
      refine ⟨(overwrite_length (by rw [h4]; omega)).trans hlen, fun i hi => ?_, fun j hj => ?_⟩
      · rw [overwrite_cut ha (by omega) w hk, hs.words i hi, kept, if_pos rfl, if_pos rfl]
        show _ = (if a.toNat = 4 * i then mixed k w _ else _)
        by_cases hh : a.toNat = 4 * i
        · rw [if_pos (by omega), if_pos hh]
        · rw [if_neg (by omega), if_neg hh]
      · rw [overwrite_get (by rw [h4]; omega), h4, if_neg (by omega)]
        exact hs.rest j hj

/-- **C136**, one machine that stops in the middle of a request to the file: the file keeps its length and its bytes after the
last whole word; every word other than the one being written is the last one the machine wrote there, or the one it had;
the word being written has its first `k` bytes new and the others as they were. A file opened read-only is unchanged. -/
theorem C136_crash {file file' : List U8} {broken : Nat → Bool} {wr : Bool} {tape : List (Req × Answer)} {q : Req} {k : Nat}
    (h : Crash file broken wr tape q k file') : file'.length = file.length ∧
      (wr = false → ∀ i, 4 * i + 4 ≤ file.length → wordAt file' i = wordAt file i) ∧
      (wr = true → ∀ i, 4 * i + 4 ≤ file.length →
        ((∀ a w ex, q = .write a w ex → a.toNat ≠ 4 * i) → wordAt file' i = storedAfter file (tape.map (·.1)) i) ∧
        ∀ a w ex, q = .write a w ex → a.toNat = 4 * i →
          wordAt file' i = mixed k w (storedAfter file (tape.map (·.1)) i)) ∧
      ∀ j, file.length / 4 * 4 ≤ j → file'[j]? = file[j]? := by
  obtain ⟨h1, h2, h3⟩ := crash_words h
  refine ⟨h1, fun hw i hi => ?_, fun hw i hi => ⟨fun hq => ?_, ?_⟩, h3⟩
  · rw [h2 i hi, hw, if_neg Bool.false_ne_true]
  · rw [h2 i hi, hw, if_pos rfl]
    cases q with
    | read => rfl
    | reset => rfl
    | write a w ex =>
      show (if a.toNat = 4 * i then _ else _) = _
      rw [if_neg (hq a w ex rfl)]
  · rintro a w ex rfl ha
    rw [h2 i hi, hw, if_pos rfl]
    show (if a.toNat = 4 * i then _ else _) = _
    rw [if_pos ha]

/-- **C136**, any number of machines, each dropped at the end or stopped anywhere, even in the middle of a write: the file
keeps its length and its bytes after the last whole word, and each word is what the writes, whole or cut, that happened
to it make of it, in order. -/
theorem C136_file {file now : List U8} {es : List FileEvent} (h : Survives file es now) :
    now.length = file.length ∧ (∀ i, 4 * i + 4 ≤ file.length → wordAt now i = wordAfterEvents file es i) ∧
      ∀ j, file.length / 4 * 4 ≤ j → now[j]? = file[j]? := by
  have tape_events : ∀ (tape : List (Req × Answer)),
      (tape.map fun e => FileEvent.answered e.1) = (tape.map (·.1)).map .answered := by
    intro tape; rw [List.map_map]; rfl
  have next : ∀ {x y : List U8} {es : List FileEvent} {rs : List Req} {i : Nat}, wordAt x i = wordAfterEvents file es i →
      storedAfter x rs i = wordAfterEvents file (es ++ rs.map .answered) i := by
    intro x y es rs i hx
    rw [← storedAfter_events, wordAfterEvents_append, ← hx]; rfl
  induction h with
  | start => exact ⟨rfl, fun _ _ => rfl, fun _ _ => rfl⟩
  | reading _ hs ih =>
    obtain ⟨i1, i2, i3⟩ := ih
    obtain ⟨h1, h2, h3⟩ := C115_session hs
    exact ⟨h1.trans i1, fun i hi => (h2 i (by omega)).trans (i2 i hi), fun j hj => (h3 j (by omega)).trans (i3 j hj)⟩
  | readingCrash _ hs ih =>
    obtain ⟨i1, i2, i3⟩ := ih
    obtain ⟨h1, h2, h3⟩ := crash_words hs
    exact ⟨h1.trans i1, fun i hi => (h2 i (by omega)).trans (i2 i hi), fun j hj => (h3 j (by omega)).trans (i3 j hj)⟩
  | @writing es now now' _ tape _ hs ih =>
    obtain ⟨i1, i2, i3⟩ := ih
    obtain ⟨h1, h2, h3⟩ := C115_session hs
    refine ⟨h1.trans i1, fun i hi => (h2 i (by omega)).trans ?_, fun j hj => (h3 j (by omega)).trans (i3 j hj)⟩
    rw [if_pos rfl, tape_events]
    exact next (y := now') (i2 i hi)
  | @writingCrash es now now' _ tape q k _ hs ih =>
    obtain ⟨i1, i2, i3⟩ := ih
    obtain ⟨h1, h2, h3⟩ := crash_words hs
    refine ⟨h1.trans i1, fun i hi => (h2 i (by omega)).trans ?_, fun j hj => (h3 j (by omega)).trans (i3 j hj)⟩
    rw [if_pos rfl, tape_events, wordAfterEvents_append, next (y := now') (i2 i hi)]

theorem apply_other {es : List FileEvent} {i : Nat} (h : ∀ e ∈ es, ¬ e.Concerns i) (v : Word) :
    es.foldl (FileEvent.apply i) v = v := by
  induction es generalizing v with
  | nil => rfl
  | cons e es ih =>
    have he := h e List.mem_cons_self
    rw [List.foldl_cons, ih fun e h' => h e (List.mem_cons_of_mem _ h')]
    match e, he with
    | .answered (.read ..), _ => rfl
    | .answered .reset, _ => rfl
    | .answered (.write b w ex), he => exact if_neg he
    | .cut b w k, he => exact if_neg he

/-- **C136**, nothing that was answered is lost: whatever machines crash before and after, a word holds what was written there
by the last write that was answered, if no later write was cut there. -/
theorem C136_kept {file now : List U8} {es es' : List FileEvent} {a w : Word} {ex : U16} {i : Nat}
    (h : Survives file (es ++ .answered (.write a w ex) :: es') now) (ha : a.toNat = 4 * i) (hi : 4 * i + 4 ≤ file.length)
    (hes : ∀ e ∈ es', ¬ e.Concerns i) : wordAt now i = w := by
  rw [(C136_file h).2.1 i hi, wordAfterEvents_append, List.foldl_cons, apply_other hes]
  exact if_pos ha

/-- **C136**, a word nobody writes is never damaged. -/
theorem C136_untouched {file now : List U8} {es : List FileEvent} (h : Survives file es now) {i : Nat}
    (hi : 4 * i + 4 ≤ file.length) (hes : ∀ e ∈ es, ¬ e.Concerns i) : wordAt now i = wordAt file i := by
  rw [(C136_file h).2.1 i hi]
  exact apply_other hes _

/-- **C136**, what the programs of the next machine see: until it writes there itself, each read inside the file gives, without
exception, the word the crashes left; a read that the operating system refuses gives 0 and raises
`GenericPhysicalReadError`. -/
theorem C136_next {file now file' : List U8} {es : List FileEvent} (h : Survives file es now) {broken : Nat → Bool} {wr : Bool}
    {before after : List (Req × Answer)} {a w : Word} {ex ex' : U16}
    (hs : Session now broken wr (before ++ (.read a ex, .value w ex') :: after) file') (hl : a.toNat + 4 ≤ file.length) :
    (w = wordAfterEvents file (es ++ if wr then before.map (fun e => .answered e.1) else []) (a.toNat / 4) ∧ ex' = ex) ∨
    ((∃ n, broken n = true) ∧ w = 0 ∧ ex' = AuxHwException.genericPhysicalReadError.encode) := by
  obtain ⟨h1, h2, _⟩ := C136_file h
  rcases C115 .start hs (by omega) with ⟨e1, e2⟩ | e
  · refine .inl ⟨e1.trans ?_, e2⟩
    have hw := h2 (a.toNat / 4) (by omega)
    rw [List.nil_append, ← storedAfter_events, wordAfterEvents_append, ← hw]
    cases wr
    · rfl
    · rw [if_pos rfl, if_pos rfl, List.map_map]; rfl
  · exact .inr e

/-! ### What the definitions mean -/

/-- Byte `j` of a mixed word, counted from the strongest: the new word's for the first `k`, the old word's for the others. -/
theorem C136_mixed {k : Nat} (hk : k ≤ 4) (new old : Word) {j : Nat} (hj : j < 4) :
    (mixed k new old).toNat / 256 ^ (3 - j) % 256 = (if j < k then new else old).toNat / 256 ^ (3 - j) % 256 := by
  have h1 := new.isLt; have h2 := old.isLt
  unfold mixed
  rw [BitVec.toNat_ofNat]
  match k, hk, j, hj with
  | 0, _, 0, _ => rw [if_neg (by omega), show (256 : Nat) ^ (4 - 0) = 4294967296 from rfl]; first | omega | (rw [show (256 : Nat) ^ (3 - 0) = 16777216 from rfl]; omega)
  | 0, _, 1, _ => rw [if_neg (by omega), show (256 : Nat) ^ (4 - 0) = 4294967296 from rfl]; first | omega | (rw [show (256 : Nat) ^ (3 - 1) = 65536 from rfl]; omega)
  | 0, _, 2, _ => rw [if_neg (by omega), show (256 : Nat) ^ (4 - 0) = 4294967296 from rfl]; first | omega | (rw [show (256 : Nat) ^ (3 - 2) = 256 from rfl]; omega)
  | 0, _, 3, _ => rw [if_neg (by omega), show (256 : Nat) ^ (4 - 0) = 4294967296 from rfl]; first | omega | (rw [show (256 : Nat) ^ (3 - 3) = 1 from rfl]; omega)
  | 1, _, 0, _ => rw [if_pos (by omega), show (256 : Nat) ^ (4 - 1) = 16777216 from rfl]; first | omega | (rw [show (256 : Nat) ^ (3 - 0) = 16777216 from rfl]; omega)
  | 1, _, 1, _ => rw [if_neg (by omega), show (256 : Nat) ^ (4 - 1) = 16777216 from rfl]; first | omega | (rw [show (256 : Nat) ^ (3 - 1) = 65536 from rfl]; omega)
  | 1, _, 2, _ => rw [if_neg (by omega), show (256 : Nat) ^ (4 - 1) = 16777216 from rfl]; first | omega | (rw [show (256 : Nat) ^ (3 - 2) = 256 from rfl]; omega)
  | 1, _, 3, _ => rw [if_neg (by omega), show (256 : Nat) ^ (4 - 1) = 16777216 from rfl]; first | omega | (rw [show (256 : Nat) ^ (3 - 3) = 1 from rfl]; omega)
  | 2, _, 0, _ => rw [if_pos (by omega), show (256 : Nat) ^ (4 - 2) = 65536 from rfl]; first | omega | (rw [show (256 : Nat) ^ (3 - 0) = 16777216 from rfl]; omega)
  | 2, _, 1, _ => rw [if_pos (by omega), show (256 : Nat) ^ (4 - 2) = 65536 from rfl]; first | omega | (rw [show (256 : Nat) ^ (3 - 1) = 65536 from rfl]; omega)
  | 2, _, 2, _ => rw [if_neg (by omega), show (256 : Nat) ^ (4 - 2) = 65536 from rfl]; first | omega | (rw [show (256 : Nat) ^ (3 - 2) = 256 from rfl]; omega)
  | 2, _, 3, _ => rw [if_neg (by omega), show (256 : Nat) ^ (4 - 2) = 65536 from rfl]; first | omega | (rw [show (256 : Nat) ^ (3 - 3) = 1 from rfl]; omega)
  | 3, _, 0, _ => rw [if_pos (by omega), show (256 : Nat) ^ (4 - 3) = 256 from rfl]; first | omega | (rw [show (256 : Nat) ^ (3 - 0) = 16777216 from rfl]; omega)
  | 3, _, 1, _ => rw [if_pos (by omega), show (256 : Nat) ^ (4 - 3) = 256 from rfl]; first | omega | (rw [show (256 : Nat) ^ (3 - 1) = 65536 from rfl]; omega)
  | 3, _, 2, _ => rw [if_pos (by omega), show (256 : Nat) ^ (4 - 3) = 256 from rfl]; first | omega | (rw [show (256 : Nat) ^ (3 - 2) = 256 from rfl]; omega)
  | 3, _, 3, _ => rw [if_neg (by omega), show (256 : Nat) ^ (4 - 3) = 256 from rfl]; first | omega | (rw [show (256 : Nat) ^ (3 - 3) = 1 from rfl]; omega)
  | 4, _, 0, _ => rw [if_pos (by omega), show (256 : Nat) ^ (4 - 4) = 1 from rfl]; first | omega | (rw [show (256 : Nat) ^ (3 - 0) = 16777216 from rfl]; omega)
  | 4, _, 1, _ => rw [if_pos (by omega), show (256 : Nat) ^ (4 - 4) = 1 from rfl]; first | omega | (rw [show (256 : Nat) ^ (3 - 1) = 65536 from rfl]; omega)
  | 4, _, 2, _ => rw [if_pos (by omega), show (256 : Nat) ^ (4 - 4) = 1 from rfl]; first | omega | (rw [show (256 : Nat) ^ (3 - 2) = 256 from rfl]; omega)
  | 4, _, 3, _ => rw [if_pos (by omega), show (256 : Nat) ^ (4 - 4) = 1 from rfl]; first | omega | (rw [show (256 : Nat) ^ (3 - 3) = 1 from rfl]; omega)

/-- A write that is answered leaves the file in the last of the states in which it could have stopped. -/
theorem C136_answered {d d' : FileBackedMem} {a w : Word} {ex ex' : U16} (h : Bus.write d a w ex = some (d', ex')) :
    d.StoppedInWrite a w (if d.writable = true ∧ a.toNat < d.realSize.toNat then 4 else 0) d'.file := by
  have h : FileBackedMem.write d a w ex = some (d', ex') := h
  unfold FileBackedMem.write at h
  split at h
  · next hw => cases h; rw [if_neg (by rw [hw]; simp)]; exact .before
  · next hw =>
    have hw : d.writable = true := by cases hd : d.writable with | true => rfl | false => exact absurd hd hw
    split at h
    · next hl =>
      split at h
      · cases h
      · next hb =>
        cases h
        rw [if_pos ⟨hw, hl⟩]
        exact .during hw hl (Bool.eq_false_iff.mpr fun h => hb (.inl h)) (Nat.le_refl 4)
    · next hl => cases h; rw [if_neg (fun h => hl h.2)]; exact .before

/-- Before it stops, a stopping component answers as the component does. -/
theorem C136_before {d : D} {rs : List Req} {n : Nat} (hn : rs.length ≤ n) (tape : List (Req × Answer)) :
    (serveAll (⟨d, tape, n, none⟩ : Stopping D) rs).map (fun p => (p.1.dev, p.2)) = serveAll d rs := by
  induction rs generalizing d n tape with
  | nil => rfl
  | cons r rs ih =>
    obtain ⟨n, rfl⟩ : ∃ m, n = m + 1 := ⟨n - 1, by have := List.length_cons (a := r) (as := rs); omega⟩
    have hn : rs.length ≤ n := by have := List.length_cons (a := r) (as := rs); omega
    have key : ∀ (o : Res (D × Answer)),
        serve (⟨d, tape, n + 1, none⟩ : Stopping D) r = o.map (fun p => (⟨p.1, tape ++ [(r, p.2)], n, none⟩, p.2)) →
        serve d r = o →
        (serveAll (⟨d, tape, n + 1, none⟩ : Stopping D) (r :: rs)).map (fun p => (p.1.dev, p.2)) = serveAll d (r :: rs) := by
      intro o h1 h2
      simp only [serveAll, h1, h2]
      cases o with
      | none => rfl
      | some p =>
        obtain ⟨d1, an⟩ := p
        simp only [Option.map_some, Option.bind_eq_bind, Option.bind_some]
        rw [← ih (d := d1) hn (tape ++ [(r, an)])]
        cases serveAll (⟨d1, tape ++ [(r, an)], n, none⟩ : Stopping D) rs <;> rfl
    cases r with
    | read a ex =>
      refine key _ ?_ rfl
      simp only [serve]
      show ((Bus.read d a ex).map _).map _ = _
      cases Bus.read d a ex <;> rfl
    | write a w ex =>
      refine key _ ?_ rfl
      simp only [serve]
      show ((Bus.write d a w ex).map _).map _ = _
      cases Bus.write d a w ex <;> rfl
    | reset =>
      refine key _ ?_ rfl
      simp only [serve]
      show ((Bus.reset d).map _).map _ = _
      cases Bus.reset d <;> rfl

/-! ### A crash in the middle of a write -/

/-- The machine of the file, which stops during the second request to the file. -/
def Demo.crashing : List (Stopping (BootRom ⊕ FileBackedMem)) :=
  (Demo.filing Demo.file18 true).map fun d => ⟨d, [], 1, none⟩

/-- The file of `Demo.file18` after `7` was written in its third word, and half of `0xAABBCCDD` in its fourth. -/
def Demo.torn : List U8 := [0, 0, 0, 1, 0, 0, 0, 2, 0, 0, 0, 7, 0xAA, 0xBB, 0, 4, 5, 6]

/-- The host writes two words; the process stops in the middle of the second write. -/
theorem Demo.crash : Crash Demo.file18 (fun _ => false) true [(.write 8 7 0, .wrote 0)] (.write 12 0xAABBCCDD 0) 2 Demo.torn := by
  have h : ((newBoard .debug Demo.crashing).bind (hostRun .debug
      [.mapContiguous 0 [0, 1], .memWrite 0x48 7 0, .memWrite 0x4C 0xAABBCCDD 0])).map (·.devs[1]?) =
      some (some ⟨.inr ⟨Demo.file18', fun _ => false, 2, 16, 16, true, 0x22⟩, [(.write 8 7 0, .wrote 0)], 0,
        some (.write 12 0xAABBCCDD 0)⟩) := rfl
  obtain ⟨s', h1, h2⟩ := Option.map_eq_some_iff.mp h
  obtain ⟨s0, h3, h4⟩ := Option.bind_eq_some_iff.mp h1
  exact ⟨.debug, BootRom, inferInstance, Demo.crashing, 1, 0x22, _, _, 1, s0, s', _, rfl, rfl, h3, h4, h2,
    .during (k := 2) rfl (by decide) rfl (by decide)⟩

/-- After the crash another machine reads the two words: the first write is whole, the second one is half done; neither the old
word nor the new one. -/
example : ∃ es, Survives Demo.file18 es Demo.torn ∧
    Session Demo.torn (fun _ => false) false [(.read 8 0, .value 7 0), (.read 0xC 0, .value 0xAABB0004 0)] Demo.torn ∧
    wordAfterEvents Demo.file18 es 2 = 7 ∧ wordAfterEvents Demo.file18 es 3 = 0xAABB0004 :=
  ⟨_, .writingCrash .start Demo.crash,
    session_of (pf := .debug) (hw := 0x22) rfl (Demo.filing Demo.torn false) 1 rfl
      [.mapContiguous 0 [0, 1], .memRead 0x48 0, .memRead 0x4C 0]
      ⟨Demo.torn, fun _ => false, 4, 16, 16, false, 0x22⟩ rfl, by decide, by decide⟩

end Lrvm
