import Verif.Props.Devices.History
import Verif.Props.Devices.FileBacked
import Verif.Spec.Sessions

/-!
# A file outlives the machines that use it: C115
-/

namespace Lrvm

open Spec

variable {D : Type} [Bus D] {pf : Profile}

/-! ### A component on a board is only ever served requests -/

/-- The request is at a multiple of 4. -/
def Spec.Req.Aligned : Req → Prop
  | .read a _ => a.toNat % 4 = 0
  | .write a _ _ => a.toNat % 4 = 0
  | .reset => True

/-- What is kept about component `id`: it is the initial one after the requests of its tape, which got these answers. -/
def TapeServed (d0 : D) (id i : Nat) (d : Taped D) : Prop :=
  i = id → serveAll d0 (d.tape.map (·.1)) = some (d.dev, d.tape.map (·.2)) ∧ ∀ r ∈ d.tape.map (·.1), r.Aligned

theorem TapeServed.snoc {d0 : D} {d : Taped D} {d' : D} (h : TapeServed d0 0 0 d) {q : Req} {an : Answer}
    (hs : serve d.dev q = some (d', an)) (hw : q.Aligned) : TapeServed d0 0 0 ⟨d', d.tape ++ [(q, an)]⟩ := by
  intro _
  obtain ⟨h1, h2⟩ := h rfl
  refine ⟨?_, ?_⟩
  · rw [List.map_append, List.map_append]
    exact serveAll_append h1 (serveAll_cons hs (serveAll_nil d'))
  · intro r hr
    rw [List.map_append] at hr
    rcases List.mem_append.mp hr with hr | hr
    · exact h2 r hr
    · simp only [List.map_cons, List.map_nil, List.mem_singleton] at hr
      subst hr; exact hw

theorem served_devInv (d0 : D) (id : Nat) (cache : List AuxCache) :
    DevInv (D := Taped D) (TapeServed d0 id) cache where
  read := by
    intro i d a ex d' w ex' hP hr h hi
    subst hi
    have h : (Bus.read d.dev a ex).map (fun p => ((⟨p.1, d.tape ++ [(Req.read a ex, Answer.value p.2.1 p.2.2)]⟩ : Taped D),
      p.2.1, p.2.2)) = some (d', w, ex') := h
    obtain ⟨p, h1, h2⟩ := Option.map_eq_some_iff.mp h
    injection h2 with h2 h3
    subst h2
    exact TapeServed.snoc (fun _ => hP rfl) (by simp only [serve, h1]; rfl) hr.1 rfl
  write := by
    intro i d a w ex d' ex' hP hr h hi
    subst hi
    have h : (Bus.write d.dev a w ex).map (fun p => ((⟨p.1, d.tape ++ [(Req.write a w ex, Answer.wrote p.2)]⟩ : Taped D),
      p.2)) = some (d', ex') := h
    obtain ⟨p, h1, h2⟩ := Option.map_eq_some_iff.mp h
    injection h2 with h2 h3
    subst h2
    exact TapeServed.snoc (fun _ => hP rfl) (by simp only [serve, h1]; rfl) hr.1 rfl
  reset := by
    intro i d d' hP h hi
    subst hi
    have h : (Bus.reset d.dev).map (fun p => (⟨p, d.tape ++ [(Req.reset, Answer.done)]⟩ : Taped D)) = some d' := h
    obtain ⟨p, h1, h2⟩ := Option.map_eq_some_iff.mp h
    subst h2
    exact TapeServed.snoc (fun _ => hP rfl) (by simp only [serve, h1]; rfl) trivial rfl

theorem board_served {devs : List D} {s0 s' : Machine (Taped D)} {ops : List HostOp}
    (hb : newBoard pf (devs.map blank) = some s0) (h : hostRun pf ops s0 = some s')
    {id : Nat} {d0 : D} (hd0 : devs[id]? = some d0) {d : Taped D} (hd : s'.devs[id]? = some d) :
    serveAll d0 (d.tape.map (·.1)) = some (d.dev, d.tape.map (·.2)) ∧ ∀ r ∈ d.tape.map (·.1), r.Aligned := by
  obtain ⟨_, _, hdv, hmap, _⟩ := newBoard_inv hb
  obtain ⟨_, _, hdev⟩ := hostRun_devInv (served_devInv d0 id s0.memCache) (by rw [hmap]; intro m hm; cases hm)
    (by
      rw [hdv]; intro i e he hi
      subst hi
      rw [List.getElem?_map, hd0] at he
      cases he
      exact ⟨rfl, by simp [blank]⟩) h
  exact hdev id d hd rfl

/-! ### The file, whatever the operating system does -/

/-- The component serves the words of `file` after the requests `reqs`. -/
structure Stores (file : List U8) (broken : Nat → Bool) (wr : Bool) (reqs : List Req) (d : FileBackedMem) : Prop where
  inv : FileInv d
  size : d.realSize.toNat = file.length / 4 * 4
  broken : d.broken = broken
  writable : d.writable = wr
  length : d.file.length = file.length
  words : ∀ i, 4 * i + 4 ≤ file.length → wordAt d.file i = storedAfter file reqs i
  rest : ∀ j, file.length / 4 * 4 ≤ j → d.file[j]? = file[j]?

theorem storedAfter_snoc_other {file : List U8} {reqs : List Req} {r : Req} {i : Nat}
    (h : ∀ b w ex, r = .write b w ex → b.toNat ≠ 4 * i) : storedAfter file (reqs ++ [r]) i = storedAfter file reqs i := by
  unfold storedAfter
  rw [List.reverse_append]
  cases r with
  | read => rfl
  | reset => rfl
  | write b w ex =>
    simp only [List.reverse_cons, List.reverse_nil, List.nil_append, List.cons_append, lastWritten]
    rw [if_neg (h b w ex rfl)]

theorem storedAfter_nil (file : List U8) (i : Nat) : storedAfter file [] i = wordAt file i := by
  simp only [storedAfter, List.reverse_nil, lastWritten, Option.getD_none]

theorem Stores.touch {file : List U8} {broken : Nat → Bool} {wr : Bool} {reqs : List Req} {d : FileBackedMem}
    (h : Stores file broken wr reqs d) {r : Req} (n : Nat)
    (hr : ∀ i, 4 * i + 4 ≤ file.length → storedAfter file (reqs ++ [r]) i = storedAfter file reqs i) :
    Stores file broken wr (reqs ++ [r]) { d with calls := n } where
  inv := ⟨h.inv.aligned, h.inv.inside⟩
  size := h.size
  broken := h.broken
  writable := h.writable
  length := h.length
  words i hi := by rw [hr i hi]; exact h.words i hi
  rest := h.rest

theorem Stores.calls {file : List U8} {broken : Nat → Bool} {wr : Bool} {reqs : List Req} {d : FileBackedMem}
    (h : Stores file broken wr reqs d) (n : Nat) : Stores file broken wr reqs { d with calls := n } where
  inv := ⟨h.inv.aligned, h.inv.inside⟩
  size := h.size
  broken := h.broken
  writable := h.writable
  length := h.length
  words i hi := h.words i hi
  rest := h.rest

/-- What a read does, whatever the operating system does. -/
theorem file_read_cases {d : FileBackedMem} (hi : FileInv d) {a : Word} (ex : U16) (ha : a.toNat % 4 = 0) :
    (d.realSize.toNat ≤ a.toNat ∧ Bus.read d a ex = some (d, 0, ex)) ∨
    (a.toNat < d.realSize.toNat ∧ ∃ n, Bus.read d a ex = some ({ d with calls := n }, wordAt d.file (a.toNat / 4), ex)) ∨
    (a.toNat < d.realSize.toNat ∧ (∃ k, d.broken k = true) ∧
      ∃ n, Bus.read d a ex = some ({ d with calls := n }, 0, AuxHwException.genericPhysicalReadError.encode)) := by
  by_cases hl : a.toNat < d.realSize.toNat
  · by_cases h1 : d.broken d.calls = true
    · exact .inr (.inr ⟨hl, ⟨_, h1⟩, C67_read_error ex hl (.inl h1)⟩)
    · by_cases h2 : d.broken (d.calls + 1) = true
      · exact .inr (.inr ⟨hl, ⟨_, h2⟩, C67_read_error ex hl (.inr h2)⟩)
      · exact .inr (.inl ⟨hl, _, C67_read hi ex ha hl (Bool.eq_false_iff.mpr h1) (Bool.eq_false_iff.mpr h2)⟩)
  · refine .inl ⟨Nat.le_of_not_lt hl, ?_⟩
    show FileBackedMem.read d a ex = _
    unfold FileBackedMem.read
    rw [if_pos (by rw [ge_iff_le, BitVec.le_def]; exact Nat.le_of_not_lt hl)]

theorem Stores.step {file : List U8} {broken : Nat → Bool} {reqs : List Req} {d d' : FileBackedMem}
    (h : Stores file broken true reqs d) {r : Req} {an : Answer} (hr : r.Aligned) (hs : serve d r = some (d', an)) :
    Stores file broken true (reqs ++ [r]) d' := by
  have hal := h.inv.aligned; have hin := h.inv.inside; have hsz := h.size
  cases r with
  | reset => cases hs; exact h.touch d.calls fun i _ => storedAfter_snoc_other (by intro _ _ _ h; cases h)
  | read a ex =>
    have hn : ∀ i, 4 * i + 4 ≤ file.length → storedAfter file (reqs ++ [Req.read a ex]) i = storedAfter file reqs i :=
      fun i _ => storedAfter_snoc_other (by intro _ _ _ h; cases h)
    simp only [serve] at hs
    rcases file_read_cases h.inv ex hr with ⟨_, e⟩ | ⟨_, n, e⟩ | ⟨_, _, n, e⟩ <;> rw [e] at hs <;> cases hs
    · exact h.touch d.calls hn
    · exact h.touch n hn
    · exact h.touch n hn
  | write a w ex =>
    have ha : a.toNat % 4 = 0 := hr
    simp only [serve] at hs
    by_cases hl : a.toNat < d.realSize.toNat
    · by_cases hb : d.broken d.calls = true ∨ d.broken (d.calls + 1) = true
      · have : Bus.write d a w ex = none := by
          show FileBackedMem.write d a w ex = _
          unfold FileBackedMem.write
          rw [if_neg (by rw [h.writable]; decide), if_pos (by rw [BitVec.lt_def]; exact hl), if_pos hb]
        rw [this] at hs; cases hs
      · have h1 : d.broken d.calls = false := Bool.eq_false_iff.mpr fun h => hb (.inl h)
        have h2 : d.broken (d.calls + 1) = false := Bool.eq_false_iff.mpr fun h => hb (.inr h)
        rw [file_write_eq w ex hl h.writable h1 h2] at hs
        cases hs
        have h4 : (beBytes 4 w).length = 4 := rfl
        have hlen : (overwrite d.file a.toNat (beBytes 4 w)).length = d.file.length :=
          overwrite_length (by rw [h4]; omega)
        refine ⟨⟨hal, by rw [hlen]; exact hin⟩, hsz, h.broken, h.writable, by rw [hlen]; exact h.length, ?_, ?_⟩
        · intro i hi
          show wordAt (overwrite d.file a.toNat (beBytes 4 w)) i = _
          rw [overwrite_word ha (by omega)]
          by_cases hh : a.toNat = 4 * i
          · rw [if_pos (by omega)]
            simp [storedAfter, lastWritten, hh]
          · rw [if_neg (by omega), h.words i hi, storedAfter_snoc_other]
            intro b w' ex' he
            injection he with he
            subst he
            exact hh
        · intro j hj
          show (overwrite d.file a.toNat (beBytes 4 w))[j]? = _
          rw [overwrite_get (by rw [h4]; omega), h4, if_neg (by omega)]
          exact h.rest j hj
    · rw [(C67_outside w ex (Nat.le_of_not_lt hl) h.writable).2] at hs
      cases hs
      refine h.touch d.calls fun i hi => storedAfter_snoc_other ?_
      intro b w' ex' he
      injection he with he
      subst he
      omega

theorem Stores.step_readonly {file : List U8} {broken : Nat → Bool} {reqs : List Req} {d d' : FileBackedMem}
    (h : Stores file broken false reqs d) {r : Req} {an : Answer} (hr : r.Aligned) (hs : serve d r = some (d', an)) :
    Stores file broken false reqs d' := by
  cases r with
  | reset => cases hs; exact h
  | read a ex =>
    simp only [serve] at hs
    rcases file_read_cases h.inv ex hr with ⟨_, e⟩ | ⟨_, n, e⟩ | ⟨_, _, n, e⟩ <;> rw [e] at hs <;> cases hs
    · exact h
    · exact h.calls n
    · exact h.calls n
  | write a w ex =>
    simp only [serve] at hs
    rw [C67_readonly h.writable] at hs
    cases hs
    exact h

/-- The requests that a component opened with `wr` stores. -/
def kept (wr : Bool) (rs : List Req) : List Req := if wr then rs else []

theorem Stores.run {file : List U8} {broken : Nat → Bool} {wr : Bool} {reqs rs : List Req} {d d' : FileBackedMem}
    {as : List Answer} (h : Stores file broken wr reqs d) (hr : ∀ r ∈ rs, r.Aligned)
    (hs : serveAll d rs = some (d', as)) : Stores file broken wr (reqs ++ kept wr rs) d' := by
  induction rs generalizing d reqs as with
  | nil => cases hs; simpa [kept] using h
  | cons r rs ih =>
    simp only [serveAll, Option.bind_eq_bind, Option.bind_eq_some_iff] at hs
    obtain ⟨⟨d1, a⟩, h1, ⟨d2, as'⟩, h2, h3⟩ := hs
    cases h3
    have hr' := fun r h => hr r (List.mem_cons_of_mem _ h)
    cases wr with
    | true =>
      have := ih (h.step (hr r List.mem_cons_self) h1) hr' h2
      simpa [kept] using this
    | false => exact ih (h.step_readonly (hr r List.mem_cons_self) h1) hr' h2

theorem stores_open {file : List U8} {broken : Nat → Bool} {wr : Bool} {hw : U64} {d : FileBackedMem}
    (h : FileBackedMem.open file broken wr hw = some d) : Stores file broken wr [] d := by
  obtain ⟨hi, hf, hb, hwr, hsz, _, _⟩ := file_open h
  exact ⟨hi, hsz, hb, hwr, by rw [hf], fun i _ => by rw [hf, storedAfter_nil], fun j _ => by rw [hf]⟩

theorem serveAll_split {d : D} {rs rs' : List Req} {d' : D} {as as' : List Answer} (hlen : as.length = rs.length)
    (h : serveAll d (rs ++ rs') = some (d', as ++ as')) :
    ∃ d1, serveAll d rs = some (d1, as) ∧ serveAll d1 rs' = some (d', as') := by
  induction rs generalizing d as with
  | nil =>
    cases as with
    | nil => exact ⟨d, rfl, h⟩
    | cons => simp at hlen
  | cons r rs ih =>
    cases as with
    | nil => simp at hlen
    | cons a as =>
      simp only [List.cons_append, serveAll, Option.bind_eq_bind, Option.bind_eq_some_iff] at h
      obtain ⟨⟨d1, a1⟩, h1, ⟨d2, as2⟩, h2, h3⟩ := h
      simp only [Option.some.injEq, Prod.mk.injEq, List.cons.injEq] at h3
      obtain ⟨rfl, rfl, rfl⟩ := h3
      obtain ⟨d3, h4, h5⟩ := ih (by simpa using hlen) h2
      exact ⟨d3, serveAll_cons h1 h4, h5⟩

theorem session_served {file file' : List U8} {broken : Nat → Bool} {wr : Bool} {tape : List (Req × Answer)}
    (h : Session file broken wr tape file') : ∃ d0 d : FileBackedMem, Stores file broken wr [] d0 ∧
      serveAll d0 (tape.map (·.1)) = some (d, tape.map (·.2)) ∧ (∀ r ∈ tape.map (·.1), r.Aligned) ∧ file' = d.file := by
  obtain ⟨pf, D, _, devs, id, hw, d0, d, s0, s', ops, ho, hd0, hb, hrun, hd, hf⟩ := h
  obtain ⟨h1, h2⟩ := board_served hb hrun hd0 hd
  refine ⟨d0, d, stores_open ho, ?_, h2, hf⟩
  rw [serveAll_inr] at h1
  obtain ⟨p, h3, h4⟩ := Option.map_eq_some_iff.mp h1
  rw [h3]
  injection h4 with h4 h5
  injection h4 with h4
  rw [← h4, ← h5]

/-! ### The claim -/

/-- **C115**, one machine: whatever the machine did and wherever it was stopped, and whatever the operating system refused
to it, the file then has its length; each whole word in it is the last one the machine wrote there, or the one it had; the
bytes after the last whole word are unchanged. A file opened read-only is unchanged. -/
theorem C115_session {file file' : List U8} {broken : Nat → Bool} {wr : Bool} {tape : List (Req × Answer)}
    (h : Session file broken wr tape file') : file'.length = file.length ∧
      (∀ i, 4 * i + 4 ≤ file.length → wordAt file' i = if wr then storedAfter file (tape.map (·.1)) i else wordAt file i) ∧
      ∀ j, file.length / 4 * 4 ≤ j → file'[j]? = file[j]? := by
  obtain ⟨d0, d, h0, h1, h2, rfl⟩ := session_served h
  have hs := h0.run h2 h1
  refine ⟨hs.length, fun i hi => (hs.words i hi).trans ?_, hs.rest⟩
  cases wr with
  | true => rw [if_pos rfl, kept, if_pos rfl, List.nil_append]
  | false => rw [if_neg Bool.false_ne_true, kept, if_neg Bool.false_ne_true, List.nil_append, storedAfter_nil]

theorem lastWritten_append (a : Nat) (l l' : List Req) :
    lastWritten a (l' ++ l) = (lastWritten a l').or (lastWritten a l) := by
  induction l' with
  | nil => rw [List.nil_append, lastWritten, Option.none_or]
  | cons r l' ih =>
    cases r with
    | read => simp only [List.cons_append, lastWritten, ih]
    | reset => simp only [List.cons_append, lastWritten, ih]
    | write b w ex =>
      simp only [List.cons_append, lastWritten]
      split
      · rw [Option.some_or]
      · exact ih

theorem storedAfter_append {file now : List U8} {rs rs' : List Req} {i : Nat}
    (h : wordAt now i = storedAfter file rs i) : storedAfter now rs' i = storedAfter file (rs ++ rs') i := by
  have key : ∀ (x y : Word) (o o' : Option Word), y = o.getD x → o'.getD y = (o'.or o).getD x := by
    intro x y o o' h
    rw [h]
    cases o' with
    | none => simp only [Option.getD_none, Option.none_or]
    | some y => simp only [Option.getD_some, Option.some_or]
  rw [storedAfter, storedAfter, List.reverse_append, lastWritten_append]
  exact key _ _ _ _ h

/-- **C115**, the file: after any number of machines have used it one after the other, each stopped anywhere, each whole
word of the file is the last one any of them wrote there, or the one of the original file; the length and the bytes after
the last whole word are the original ones. -/
theorem C115_file {file now : List U8} {reqs : List Req} (h : Sessions file reqs now) :
    now.length = file.length ∧ (∀ i, 4 * i + 4 ≤ file.length → wordAt now i = storedAfter file reqs i) ∧
      ∀ j, file.length / 4 * 4 ≤ j → now[j]? = file[j]? := by
  induction h with
  | start => exact ⟨rfl, fun _ _ => (storedAfter_nil _ _).symm, fun _ _ => rfl⟩
  | reading _ hs ih =>
    obtain ⟨i1, i2, i3⟩ := ih
    obtain ⟨h1, h2, h3⟩ := C115_session hs
    exact ⟨h1.trans i1, fun i hi => (h2 i (by omega)).trans (i2 i hi), fun j hj => (h3 j (by omega)).trans (i3 j hj)⟩
  | writing _ hs ih =>
    obtain ⟨i1, i2, i3⟩ := ih
    obtain ⟨h1, h2, h3⟩ := C115_session hs
    refine ⟨h1.trans i1, fun i hi => (h2 i (by omega)).trans ?_, fun j hj => (h3 j (by omega)).trans (i3 j hj)⟩
    exact storedAfter_append (i2 i hi)

/-- **C115**, what programs see: in the session of one more machine, each read inside the file gives, without exception,
the last word written there by this machine (if it opened the file for writing), else by any of the machines before it,
else the original word; a read that the operating system refuses gives 0 and raises `GenericPhysicalReadError`. -/
theorem C115 {file now file' : List U8} {reqs : List Req} (h : Sessions file reqs now) {broken : Nat → Bool} {wr : Bool}
    {before after : List (Req × Answer)} {a w : Word} {ex ex' : U16}
    (hs : Session now broken wr (before ++ (.read a ex, .value w ex') :: after) file') (hl : a.toNat + 4 ≤ file.length) :
    (w = storedAfter file (reqs ++ if wr then before.map (·.1) else []) (a.toNat / 4) ∧ ex' = ex) ∨
    ((∃ n, broken n = true) ∧ w = 0 ∧ ex' = AuxHwException.genericPhysicalReadError.encode) := by
  obtain ⟨f1, f2, _⟩ := C115_file h
  obtain ⟨d0, d, h0, h1, h2, _⟩ := session_served hs
  rw [List.map_append, List.map_append] at h1
  obtain ⟨d1, h3, h4⟩ := serveAll_split (by simp) h1
  have hr1 : ∀ r ∈ before.map (·.1), r.Aligned := fun r hr => h2 r (by rw [List.map_append]; exact List.mem_append_left _ hr)
  have hra : (Req.read a ex).Aligned := h2 _ (by simp)
  have hst := h0.run hr1 h3
  rw [List.nil_append] at hst
  simp only [List.map_cons, serveAll, Option.bind_eq_bind, Option.bind_eq_some_iff] at h4
  obtain ⟨⟨d2, an⟩, h5, ⟨d3, as⟩, _, h7⟩ := h4
  simp only [Option.some.injEq, Prod.mk.injEq, List.cons.injEq] at h7
  obtain ⟨_, rfl, _⟩ := h7
  have hsz := hst.size
  have hlen := hst.length
  have ha : a.toNat % 4 = 0 := hra
  have hword : wordAt d1.file (a.toNat / 4) = storedAfter file (reqs ++ if wr then before.map (·.1) else []) (a.toNat / 4) :=
    (hst.words _ (by omega)).trans (storedAfter_append (f2 _ (by omega)))
  simp only [serve] at h5
  rcases file_read_cases hst.inv ex ha with ⟨hge, e⟩ | ⟨_, n, e⟩ | ⟨_, ⟨k, hk⟩, n, e⟩
  · omega
  · rw [e] at h5
    cases h5
    exact .inl ⟨hword, rfl⟩
  · rw [e] at h5
    cases h5
    exact .inr ⟨⟨k, hst.broken ▸ hk⟩, rfl, rfl⟩

/-- **C115**, the next read: while the operating system does not fail, the board of one more machine, after any history,
reads at every aligned address that the component covers and that falls inside the file the last word written there by any
of the machines. -/
theorem C115_next {file now : List U8} {reqs : List Req} (h : Sessions file reqs now) {broken : Nat → Bool} {wr : Bool}
    (hio : ∀ n, broken n = false) {devs : List (D ⊕ FileBackedMem)} {id : Nat} {hw : U64} {d0 : FileBackedMem}
    {d : Taped (D ⊕ FileBackedMem)} {s0 s' : Machine (Taped (D ⊕ FileBackedMem))} {ops : List HostOp}
    (ho : FileBackedMem.open now broken wr hw = some d0) (hd0 : devs[id]? = some (.inr d0))
    (hb : newBoard pf (devs.map blank) = some s0) (hrun : hostRun pf ops s0 = some s') (hd : s'.devs[id]? = some d)
    (ht : TableOk pf s'.mappings) {m : Mapping} (hmm : m ∈ s'.mappings) (hmid : m.auxId = id) {a : Word} (hc : covers m a)
    (ha : a.toNat % 4 = 0) (hl : (a - m.addr).toNat + 4 ≤ file.length) (ex : U16) :
    ∃ s'', memRead pf s' a ex =
      some (storedAfter file (reqs ++ if wr then d.tape.map (·.1) else []) ((a - m.addr).toNat / 4), ex, s'') := by
  obtain ⟨f1, f2, _⟩ := C115_file h
  obtain ⟨h1, h2⟩ := board_served hb hrun hd0 hd
  rw [serveAll_inr] at h1
  obtain ⟨⟨d1, as⟩, h3, h4⟩ := Option.map_eq_some_iff.mp h1
  injection h4 with h4 h5
  have hst := (stores_open ho).run h2 h3
  rw [List.nil_append] at hst
  have hsz := hst.size
  have hpl : Placed s0.memCache s'.mappings := by
    obtain ⟨_, _, hdv, hmap, _⟩ := newBoard_inv hb
    exact (hostRun_devInv (served_devInv (D := D ⊕ FileBackedMem) (.inr d0) id s0.memCache)
      (by rw [hmap]; intro m hm; cases hm)
      (by
        rw [hdv]; intro i e he hi
        subst hi
        rw [List.getElem?_map, hd0] at he
        cases he
        exact ⟨rfl, by simp [blank]⟩) hrun).2.1
  obtain ⟨h4', _, _⟩ := hpl m hmm
  obtain ⟨hof, hr⟩ := C37_read (ex := ex) ht hmm hc ha (hmid ▸ hd)
  have hal : (a - m.addr).toNat % 4 = 0 := by rw [hof]; have := hc.1; omega
  have hread := C67_read hst.inv ex hal (by omega) (by rw [hst.broken]; exact hio _) (by rw [hst.broken]; exact hio _)
  have hword := (hst.words ((a - m.addr).toNat / 4) (by omega)).trans (storedAfter_append (f2 _ (by omega)))
  obtain ⟨dev, tape⟩ := d
  simp only at h4
  subst h4
  have hread' : ∃ dd, Bus.read (⟨Sum.inr d1, tape⟩ : Taped (D ⊕ FileBackedMem)) (a - m.addr) ex =
      some (dd, storedAfter file (reqs ++ if wr then tape.map (·.1) else []) ((a - m.addr).toNat / 4), ex) := by
    rw [hword] at hread
    have key : ∀ o : Res (FileBackedMem × Word × U16), Bus.read d1 (a - m.addr) ex = o →
        Bus.read (⟨Sum.inr d1, tape⟩ : Taped (D ⊕ FileBackedMem)) (a - m.addr) ex = o.map fun p =>
          (⟨.inr p.1, tape ++ [(.read (a - m.addr) ex, .value p.2.1 p.2.2)]⟩, p.2.1, p.2.2) := by
      rintro o rfl
      show ((Bus.read d1 (a - m.addr) ex).map _).map _ = _
      cases Bus.read d1 (a - m.addr) ex <;> rfl
    exact ⟨_, key _ hread⟩
  obtain ⟨dd, hread'⟩ := hread'
  rw [hread'] at hr
  exact ⟨_, hr⟩

theorem session_of {file : List U8} {broken : Nat → Bool} {wr : Bool} {hw : U64} {d0 : FileBackedMem}
    (ho : FileBackedMem.open file broken wr hw = some d0) (devs : List (D ⊕ FileBackedMem)) (id : Nat)
    (hd : devs[id]? = some (.inr d0)) (ops : List HostOp) (d : FileBackedMem) {tape : List (Req × Answer)}
    (h : ((newBoard pf (devs.map blank)).bind (hostRun pf ops)).map (·.devs[id]?) = some (some ⟨.inr d, tape⟩)) :
    Session file broken wr tape d.file := by
  obtain ⟨s', h1, h2⟩ := Option.map_eq_some_iff.mp h
  obtain ⟨s0, h3, h4⟩ := Option.bind_eq_some_iff.mp h1
  exact ⟨pf, D, inferInstance, devs, id, hw, d0, d, s0, s', ops, ho, hd, h3, h4, h2, rfl⟩

/-! ### Two machines and a file of 18 bytes -/

/-- A boot ROM with the program `wea 0x48, 7` and the file. -/
def Demo.filing (file : List U8) (wr : Bool) : List (BootRom ⊕ FileBackedMem) :=
  [.inl ⟨[0xB0480007#32], 1, 0x10, 0x11⟩, .inr ⟨file, fun _ => false, 0, 16, 16, wr, 0x22⟩]

/-- The file before any machine. -/
def Demo.file18 : List U8 := [0, 0, 0, 1, 0, 0, 0, 2, 0, 0, 0, 3, 0, 0, 0, 4, 5, 6]

/-- The file after the first machine. -/
def Demo.file18' : List U8 := [0, 0, 0, 1, 0, 0, 0, 2, 0, 0, 0, 7, 0, 0, 0, 4, 5, 6]

/-- The first machine's program stores 7 in the third word; a reset of the board does not erase it. -/
theorem Demo.first_session : Session Demo.file18 (fun _ => false) true [(.write 8 7 0, .wrote 0), (.reset, .done)]
    Demo.file18' :=
  session_of (pf := .debug) (hw := 0x22) rfl (Demo.filing Demo.file18 true) 1 rfl
    [.mapContiguous 0 [0, 1], .cpuReset, .next, .reset] ⟨Demo.file18', fun _ => false, 2, 16, 16, true, 0x22⟩ rfl

/-- The second one, with the file read-only, fails to write it and reads two words. -/
theorem Demo.second_session : Session Demo.file18' (fun _ => false) false
    [(.write 8 9 0, .wrote AuxHwException.memoryNotWritable.encode), (.read 8 0, .value 7 0), (.read 0xC 0, .value 4 0)] Demo.file18' :=
  session_of (pf := .debug) (hw := 0x22) rfl (Demo.filing Demo.file18' false) 1 rfl
    [.mapContiguous 0 [0, 1], .memWrite 0x48 9 0, .memRead 0x48 0, .memRead 0x4C 0]
    ⟨Demo.file18', fun _ => false, 4, 16, 16, false, 0x22⟩ rfl

example : Sessions Demo.file18 [.write 8 7 0, .reset] Demo.file18' :=
  .reading (.writing .start Demo.first_session) Demo.second_session

end Lrvm
