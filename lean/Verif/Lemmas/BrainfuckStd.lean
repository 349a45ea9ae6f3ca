import Verif.Lemmas.BrainfuckWhole

/-!
# The language of the example `brainfuck` and Brainfuck
-/

namespace Lrvm.Brainfuck

open Spec Lrvm Lang

variable {prog : List U8} {keys : Nat → Char} {pos : Nat} {loops : List Nat}

/-- Characters interpreted one after the other. -/
inductive Walks (prog : List U8) (keys : Nat → Char) : Lang.St → Lang.St → Prop
  | here {s : Lang.St} : Walks prog keys s s
  | step {s t u : Lang.St} : step prog keys s = .go t → Walks prog keys t u → Walks prog keys s u

theorem Walks.trans {s t u : Lang.St} (h : Walks prog keys s t) (h' : Walks prog keys t u) : Walks prog keys s u := by
  induction h with
  | here => exact h'
  | step h1 _ ih => exact .step h1 (ih h')

theorem Walks.runs {s t u : Lang.St} {e : End} (h : Walks prog keys s t) (h' : Lang.Runs prog keys t u e) : Lang.Runs prog keys s u e := by
  induction h with
  | here => exact h'
  | step h1 _ ih => exact .go h1 (ih h')

/-- The text `cs` is at position `pos` of the program. -/
def Reads (prog : List U8) (pos : Nat) (cs : List Char) : Prop := ∀ i c, cs[i]? = some c → charAt prog (pos + i) = c.toNat

theorem Reads.head {c : Char} {cs : List Char} (h : Reads prog pos (c :: cs)) : charAt prog pos = c.toNat := h 0 c rfl

theorem Reads.tail {c : Char} {cs : List Char} (h : Reads prog pos (c :: cs)) : Reads prog (pos + 1) cs := by
  intro i d hi
  have := h (i + 1) d hi
  rwa [Nat.add_assoc, Nat.add_comm 1 i]

theorem Reads.left {cs ds : List Char} (h : Reads prog pos (cs ++ ds)) : Reads prog pos cs := by
  intro i c hi
  exact h i c (by rw [List.getElem?_append_left (List.getElem?_eq_some_iff.1 hi).1]; exact hi)

theorem Reads.right {cs ds : List Char} (h : Reads prog pos (cs ++ ds)) : Reads prog (pos + cs.length) ds := by
  intro i c hi
  have := h (cs.length + i) c (by rw [List.getElem?_append_right (by omega), Nat.add_sub_cancel_left]; exact hi)
  rwa [Nat.add_assoc]

/-- A state of Brainfuck as a state of the interpreter. -/
def lift (pos : Nat) (loops : List Nat) (s : Std.St) : Lang.St := ⟨pos, BitVec.ofNat 32 (4 * s.ptr), s.cells, loops, s.asked, s.out⟩

theorem onCell_lift {s : Std.St} (hs : s.ptr < 1024) (n : Nat) (f : Nat → Next) :
    Lang.St.onCell { lift pos loops s with asked := n } f = f s.ptr := by
  have h1 : (BitVec.ofNat 32 (4 * s.ptr)).toNat = 4 * s.ptr := toNat32 (by omega)
  have := onCell_in (st := { lift pos loops s with asked := n }) (f := f) (by show (BitVec.ofNat 32 (4 * s.ptr)).toNat % 4 = 0; rw [h1]; omega)
    (by show (BitVec.ofNat 32 (4 * s.ptr)).toNat < 4096; rw [h1]; omega)
  rw [this]
  show f ((BitVec.ofNat 32 (4 * s.ptr)).toNat / 4) = _
  rw [h1, Nat.mul_div_cancel_left _ (by decide)]

theorem onCell_lift' {s : Std.St} (hs : s.ptr < 1024) (f : Nat → Next) : Lang.St.onCell (lift pos loops s) f = f s.ptr :=
  onCell_lift hs s.asked f

theorem step_of {s : Lang.St} {c : Nat} {n : Next} (h : charAt prog s.pos = c)
    (hn : (if c = 0 ∨ c = 10 ∨ c = 13 then
        match s.loops with
        | [] => .stop s .done
        | l :: _ => .stop s (.unclosed s.loops.length s.pos l)
      else if c = '>'.toNat then .go { s with pos := s.pos + 1, ptr := s.ptr + 1 }
      else if c = '<'.toNat then .go { s with pos := s.pos + 1, ptr := s.ptr - 1 }
      else if c = '+'.toNat then s.onCell fun k => s.store k (s.cells k + 1)
      else if c = '-'.toNat then s.onCell fun k => s.store k (s.cells k - 1)
      else if c = '.'.toNat then s.onCell fun k => .go { s with pos := s.pos + 1, out := s.out ++ [charOrWord (s.cells k)] }
      else if c = ','.toNat then
        let s' := { s with asked := s.asked + 1 }
        s'.onCell fun k => s'.store k (BitVec.ofNat 32 (keys s.asked).toNat)
      else if c = '['.toNat then
        s.onCell fun k =>
          if s.cells k = 0 then
            if charAt prog (s.pos + 1) = ']'.toNat then .go { s with pos := s.pos + 2 }
            else .stop s (.unclosed (s.loops.length + 1) (s.pos + 1) (s.loops.headD 36))
          else if 1021 ≤ s.loops.length then .stop s .tooDeep
          else .go { s with pos := s.pos + 1, loops := s.pos :: s.loops }
      else if c = ']'.toNat then
        match s.loops with
        | [] => .stop s .noLoop
        | l :: ls => s.onCell fun k =>
          if s.cells k = 0 then .go { s with pos := s.pos + 1, loops := ls } else .go { s with pos := l, loops := ls }
      else .stop s (.unknown c)) = n) : step prog keys s = n := by
  unfold step
  rw [h]
  exact hn

theorem step_right {s : Lang.St} (h : charAt prog s.pos = '>'.toNat) : step prog keys s = .go { s with pos := s.pos + 1, ptr := s.ptr + 1 } :=
  step_of h rfl

theorem step_left {s : Lang.St} (h : charAt prog s.pos = '<'.toNat) : step prog keys s = .go { s with pos := s.pos + 1, ptr := s.ptr - 1 } :=
  step_of h rfl

theorem walk_right {s : Std.St} (h : Reads prog pos ['>', '>', '>', '>']) :
    Walks prog keys (lift pos loops s) (lift (pos + 4) loops { s with ptr := s.ptr + 1 }) := by
  refine .step (step_right h.head) <| .step (step_right h.tail.head) <| .step (step_right h.tail.tail.head) <|
    .step (step_right h.tail.tail.tail.head) ?_
  have e : BitVec.ofNat 32 (4 * s.ptr) + 1 + 1 + 1 + 1 = BitVec.ofNat 32 (4 * (s.ptr + 1)) := by
    rw [Nat.mul_add, BitVec.ofNat_add, BitVec.add_assoc, BitVec.add_assoc, BitVec.add_assoc]; rfl
  unfold lift
  dsimp only
  rw [e]
  exact .here

theorem walk_left {s : Std.St} (h0 : 0 < s.ptr) (h : Reads prog pos ['<', '<', '<', '<']) :
    Walks prog keys (lift pos loops s) (lift (pos + 4) loops { s with ptr := s.ptr - 1 }) := by
  refine .step (step_left h.head) <| .step (step_left h.tail.head) <| .step (step_left h.tail.tail.head) <|
    .step (step_left h.tail.tail.tail.head) ?_
  obtain ⟨n, hn⟩ : ∃ n, s.ptr = n + 1 := ⟨s.ptr - 1, by omega⟩
  have e : BitVec.ofNat 32 (4 * s.ptr) - 1 - 1 - 1 - 1 = BitVec.ofNat 32 (4 * (s.ptr - 1)) := by
    rw [hn, Nat.mul_add, BitVec.ofNat_add, Nat.add_sub_cancel]
    generalize BitVec.ofNat 32 (4 * n) = x
    simp only [BitVec.sub_eq_add_neg, BitVec.add_assoc]
    exact BitVec.add_zero x
  unfold lift
  dsimp only
  rw [e]
  exact .here

theorem step_inc {s : Std.St} (hs : s.ptr < 1024) (h : charAt prog pos = '+'.toNat) :
    step prog keys (lift pos loops s) = .go (lift (pos + 1) loops (s.set (s.cell + 1))) := by
  have e : step prog keys (lift pos loops s) = (lift pos loops s).onCell fun k => (lift pos loops s).store k ((lift pos loops s).cells k + 1) :=
    step_of h rfl
  exact e.trans (onCell_lift' hs _)

theorem step_dec {s : Std.St} (hs : s.ptr < 1024) (h : charAt prog pos = '-'.toNat) :
    step prog keys (lift pos loops s) = .go (lift (pos + 1) loops (s.set (s.cell - 1))) := by
  have e : step prog keys (lift pos loops s) = (lift pos loops s).onCell fun k => (lift pos loops s).store k ((lift pos loops s).cells k - 1) :=
    step_of h rfl
  exact e.trans (onCell_lift' hs _)

theorem step_put {s : Std.St} (hs : s.ptr < 1024) (h : charAt prog pos = '.'.toNat) :
    step prog keys (lift pos loops s) = .go (lift (pos + 1) loops { s with out := s.out ++ [charOrWord s.cell] }) := by
  have e : step prog keys (lift pos loops s) = (lift pos loops s).onCell fun k =>
      .go { lift pos loops s with pos := pos + 1, out := s.out ++ [charOrWord (s.cells k)] } := step_of h rfl
  exact e.trans (onCell_lift' hs _)

theorem step_get {s : Std.St} (hs : s.ptr < 1024) (h : charAt prog pos = ','.toNat) :
    step prog keys (lift pos loops s) =
      .go (lift (pos + 1) loops { s.set (BitVec.ofNat 32 (keys s.asked).toNat) with asked := s.asked + 1 }) := by
  have e : step prog keys (lift pos loops s) = Lang.St.onCell { lift pos loops s with asked := s.asked + 1 } fun k =>
      Lang.St.store { lift pos loops s with asked := s.asked + 1 } k (BitVec.ofNat 32 (keys s.asked).toNat) := step_of h rfl
  exact e.trans (onCell_lift hs _ _)

theorem step_open {s : Std.St} (hs : s.ptr < 1024) (h : charAt prog pos = '['.toNat) :
    step prog keys (lift pos loops s) =
      if s.cell = 0 then
        if charAt prog (pos + 1) = ']'.toNat then .go (lift (pos + 2) loops s)
        else .stop (lift pos loops s) (.unclosed (loops.length + 1) (pos + 1) (loops.headD 36))
      else if 1021 ≤ loops.length then .stop (lift pos loops s) .tooDeep
      else .go (lift (pos + 1) (pos :: loops) s) := by
  have e : step prog keys (lift pos loops s) = (lift pos loops s).onCell fun k =>
      if s.cells k = 0 then
        if charAt prog (pos + 1) = ']'.toNat then .go (lift (pos + 2) loops s)
        else .stop (lift pos loops s) (.unclosed (loops.length + 1) (pos + 1) (loops.headD 36))
      else if 1021 ≤ loops.length then .stop (lift pos loops s) .tooDeep
      else .go (lift (pos + 1) (pos :: loops) s) := step_of h rfl
  exact e.trans (onCell_lift' hs _)

theorem step_close {s : Std.St} (hs : s.ptr < 1024) (h : charAt prog pos = ']'.toNat) {l : Nat} :
    step prog keys (lift pos (l :: loops) s) = if s.cell = 0 then .go (lift (pos + 1) loops s) else .go (lift l loops s) := by
  have e : step prog keys (lift pos (l :: loops) s) = (lift pos (l :: loops) s).onCell fun k =>
      if s.cells k = 0 then .go (lift (pos + 1) loops s) else .go (lift l loops s) := step_of h rfl
  exact e.trans (onCell_lift' hs _)

theorem step_skip {s : Std.St} (hs : s.ptr < 1024) (h : charAt prog pos = '['.toNat) (h' : charAt prog (pos + 1) = ']'.toNat)
    (hz : s.cell = 0) : step prog keys (lift pos loops s) = .go (lift (pos + 2) loops s) :=
  (step_open hs h).trans ((if_pos hz).trans (if_pos h'))

theorem step_enter {s : Std.St} (hs : s.ptr < 1024) (h : charAt prog pos = '['.toNat) (hz : s.cell ≠ 0) (hd : loops.length < 1021) :
    step prog keys (lift pos loops s) = .go (lift (pos + 1) (pos :: loops) s) :=
  (step_open hs h).trans ((if_neg hz).trans (if_neg (Nat.not_le.2 hd)))

theorem step_leave {s : Std.St} (hs : s.ptr < 1024) (h : charAt prog pos = ']'.toNat) (hz : s.cell = 0) {l : Nat} :
    step prog keys (lift pos (l :: loops) s) = .go (lift (pos + 1) loops s) := (step_close hs h).trans (if_pos hz)

theorem step_again {s : Std.St} (hs : s.ptr < 1024) (h : charAt prog pos = ']'.toNat) (hz : s.cell ≠ 0) {l : Nat} :
    step prog keys (lift pos (l :: loops) s) = .go (lift l loops s) := (step_close hs h).trans (if_neg hz)

/-- What is proved of a run of Brainfuck. -/
def Follows (prog : List U8) (keys : Nat → Char) : Bool → Std.Program → Std.St → Std.St → Prop
  | false, p, s, t => ∀ pos loops, Reads prog pos (p.text 4) → loops.length + p.depth ≤ 1021 →
      Walks prog keys (lift pos loops s) (lift (pos + (p.text 4).length) loops t)
  | true, .loop b p, s, t => ∀ pos loops, Reads prog pos ((Std.Program.loop b p).text 4) → loops.length + (Std.Program.loop b p).depth ≤ 1021 →
      Walks prog keys (lift (pos + 1 + (b.text 4).length) (pos :: loops) s) (lift (pos + ((Std.Program.loop b p).text 4).length) loops t)
  | true, _, _, _ => True

theorem follows {back : Bool} {p : Std.Program} {s t : Std.St} (h : Std.Runs keys true back p s t) (hs : s.ptr < 1024) :
    t.ptr < 1024 ∧ Follows prog keys back p s t := by
  induction h with
  | done => exact ⟨hs, fun pos loops _ _ => .here⟩
  | @right p s t h1 _ ih =>
    obtain ⟨i1, i2⟩ := ih h1
    refine ⟨i1, fun pos loops hr hd => (walk_right hr.left).trans ?_⟩
    have := i2 (pos + 4) loops hr.right hd
    rwa [show pos + 4 + (p.text 4).length = pos + ((Std.Program.right p).text 4).length by
      show _ = pos + (List.replicate 4 '>' ++ p.text 4).length; rw [List.length_append]; simp only [List.length_replicate]; omega] at this
  | @left p s t h1 _ ih =>
    obtain ⟨i1, i2⟩ := ih (by show s.ptr - 1 < 1024; omega)
    refine ⟨i1, fun pos loops hr hd => (walk_left h1 hr.left).trans ?_⟩
    have := i2 (pos + 4) loops hr.right hd
    rwa [show pos + 4 + (p.text 4).length = pos + ((Std.Program.left p).text 4).length by
      show _ = pos + (List.replicate 4 '<' ++ p.text 4).length; rw [List.length_append]; simp only [List.length_replicate]; omega] at this
  | @inc p s t _ ih =>
    obtain ⟨i1, i2⟩ := ih hs
    refine ⟨i1, fun pos loops hr hd => .step (step_inc hs hr.head) ?_⟩
    have := i2 (pos + 1) loops hr.tail hd
    rwa [Nat.add_assoc, Nat.add_comm 1] at this
  | @dec p s t _ ih =>
    obtain ⟨i1, i2⟩ := ih hs
    refine ⟨i1, fun pos loops hr hd => .step (step_dec hs hr.head) ?_⟩
    have := i2 (pos + 1) loops hr.tail hd
    rwa [Nat.add_assoc, Nat.add_comm 1] at this
  | @put p s t _ ih =>
    obtain ⟨i1, i2⟩ := ih hs
    refine ⟨i1, fun pos loops hr hd => .step (step_put hs hr.head) ?_⟩
    have := i2 (pos + 1) loops hr.tail hd
    rwa [Nat.add_assoc, Nat.add_comm 1] at this
  | @get p s t _ ih =>
    obtain ⟨i1, i2⟩ := ih hs
    refine ⟨i1, fun pos loops hr hd => .step (step_get hs hr.head) ?_⟩
    have := i2 (pos + 1) loops hr.tail hd
    rwa [Nat.add_assoc, Nat.add_comm 1] at this
  | @skip b p s t hz hb _ ih =>
    obtain ⟨i1, i2⟩ := ih hs
    have hb := hb rfl
    subst hb
    refine ⟨i1, fun pos loops hr hd => .step (step_skip hs hr.head hr.tail.head hz) ?_⟩
    have := i2 (pos + 2) loops hr.tail.tail (Nat.le_trans (Nat.add_le_add_left (Nat.le_max_right _ _) _) hd)
    rwa [Nat.add_assoc, Nat.add_comm 2] at this
  | @enter b p s u t hz _ _ ih1 ih2 =>
    obtain ⟨i1, i2⟩ := ih1 hs
    obtain ⟨i3, i4⟩ := ih2 i1
    refine ⟨i3, fun pos loops hr hd => ?_⟩
    have hd' : loops.length + max (b.depth + 1) p.depth ≤ 1021 := hd
    refine .step (step_enter hs hr.head hz (by omega)) ?_
    exact (i2 (pos + 1) (pos :: loops) hr.tail.left (by show loops.length + 1 + b.depth ≤ 1021; omega)).trans (i4 pos loops hr hd)
  | @leave b p s t hz _ ih =>
    obtain ⟨i1, i2⟩ := ih hs
    refine ⟨i1, fun pos loops hr hd => .step (step_leave hs hr.tail.right.head hz) ?_⟩
    have := i2 _ loops hr.tail.right.tail (Nat.le_trans (Nat.add_le_add_left (Nat.le_max_right _ _) _) hd)
    rwa [show pos + 1 + (b.text 4).length + 1 + (p.text 4).length = pos + ((Std.Program.loop b p).text 4).length by
      show _ = pos + ('[' :: (b.text 4 ++ ']' :: p.text 4)).length
      rw [List.length_cons, List.length_append, List.length_cons]; omega] at this
  | @again b p s t hz _ ih =>
    obtain ⟨i1, i2⟩ := ih hs
    exact ⟨i1, fun pos loops hr hd => .step (step_again hs hr.tail.right.head hz) (i2 pos loops hr hd)⟩

/-- The characters of programs. -/
def symbols : List Char := ['>', '<', '+', '-', '.', ',', '[', ']']

theorem symbol_utf8 : ∀ c ∈ symbols, utf8 [c] = [BitVec.ofNat 8 c.toNat] ∧ c.toNat < 256 := by decide +kernel

theorem text_symbols (p : Std.Program) : ∀ c ∈ p.text 4, c ∈ symbols := by
  induction p with
  | done => exact fun c h => by cases h
  | right p ih | left p ih =>
    intro c h
    rcases List.mem_append.1 h with h | h
    · rw [List.eq_of_mem_replicate h]; decide
    · exact ih c h
  | inc p ih | dec p ih | put p ih | get p ih =>
    intro c h
    rcases List.mem_cons.1 h with rfl | h
    · decide
    · exact ih c h
  | loop b p ih1 ih2 =>
    intro c h
    rcases List.mem_cons.1 h with rfl | h
    · decide
    · rcases List.mem_append.1 h with h | h
      · exact ih1 c h
      · rcases List.mem_cons.1 h with rfl | h
        · decide
        · exact ih2 c h

theorem symbols_utf8 {cs : List Char} (h : ∀ c ∈ cs, c ∈ symbols) : utf8 cs = cs.map fun c => BitVec.ofNat 8 c.toNat := by
  induction cs with
  | nil => rfl
  | cons c cs ih =>
    rw [utf8_cons, ih (fun d hd => h d (List.mem_cons_of_mem _ hd)), (symbol_utf8 c (h c List.mem_cons_self)).1]
    rfl

/-- A line that contains a program. -/
theorem reads_line {cs rest : List Char} (h : ∀ c ∈ cs, c ∈ symbols) (hl : cs.length ≤ 4092) : Reads (typed (cs ++ rest)) 0 cs := by
  intro i c hi
  have hil : i < cs.length := (List.getElem?_eq_some_iff.1 hi).1
  have hc := symbol_utf8 c (h c (List.mem_of_getElem? hi))
  unfold typed charAt
  rw [utf8_append, symbols_utf8 h, Nat.zero_add, List.getElem?_take, if_pos (by omega), List.getElem?_append_left (by rw [List.length_map]; exact hil),
    List.getElem?_map, hi]
  exact Nat.mod_eq_of_lt hc.2

theorem ends_line {cs rest : List Char} (h : ∀ c ∈ cs, c ∈ symbols) (hl : cs.length ≤ 4092) (hrest : rest.headD '\n' = '\n' ∨ rest.headD '\n' = '\r') :
    charAt (typed (cs ++ rest)) cs.length = 0 ∨ charAt (typed (cs ++ rest)) cs.length = 10 ∨ charAt (typed (cs ++ rest)) cs.length = 13 := by
  by_cases he : cs.length < 4092
  · unfold typed charAt
    have hlen : (utf8 cs).length = cs.length := by rw [symbols_utf8 h, List.length_map]
    rw [utf8_append, List.getElem?_take, if_pos he, List.getElem?_append_right (by omega), hlen, Nat.sub_self]
    cases rest with
    | nil => exact .inl rfl
    | cons c rest =>
      rw [utf8_cons]
      rcases hrest with rfl | rfl
      · exact .inr (.inl rfl)
      · exact .inr (.inr rfl)
  · exact .inl (charAt_end (by omega))

/-- The interpretation of a Brainfuck program. -/
theorem std_runs {p : Std.Program} {t : Std.St} {rest : List Char} (h : Std.Runs keys true false p Std.St.start t)
    (hd : p.depth ≤ 1021) (hl : (p.text 4).length ≤ 4092) (hrest : rest.headD '\n' = '\n' ∨ rest.headD '\n' = '\r') :
    Lang.Runs (typed (p.text 4 ++ rest)) keys Lang.St.start (lift (p.text 4).length [] t) .done := by
  have hw := (follows (prog := typed (p.text 4 ++ rest)) h (by decide)).2 0 [] (reads_line (text_symbols p) hl) (by rw [List.length_nil, Nat.zero_add]; exact hd)
  rw [Nat.zero_add] at hw
  refine Walks.runs hw (.stop ?_)
  have := ends_line (text_symbols p) hl hrest
  unfold step
  exact if_pos this

end Lrvm.Brainfuck
