import Verif.Props.Tools.Assembler

/-!
# Programs: C55, C56
-/

namespace Lrvm

open Spec

/-! ## C55 -/

/-- **C55**, encoding: four bytes per word, in order, and the words seen as numbers. -/
theorem C55_encode (p : Program) :
    p.encode.length = 4 * p.length ∧ groups4 p.encode = p.toFoldedBytes ∧
    p.encodeWords.length = p.length ∧
    (∀ (i : Nat) (w : ProgramWord), p[i]? = some w → p.toFoldedBytes[i]? = some w.encode ∧
      ∃ n, p.encodeWords[i]? = some n ∧ IsBytesOf w.encode n) := by
  refine ⟨?_, ?_, by simp [Program.encodeWords], ?_⟩
  · induction p with
    | nil => rfl
    | cons w p ih =>
      have : (Program.encode (w :: p)) = w.encode.toList ++ Program.encode p := rfl
      rw [this, List.length_append, ih, List.length_cons]
      show 4 + _ = _
      omega
  · induction p with
    | nil => rfl
    | cons w p ih =>
      show w.encode :: groups4 (Program.encode p) = w.encode :: Program.toFoldedBytes p
      rw [ih]
  · intro i w h
    refine ⟨by simp [Program.toFoldedBytes, h], w.encodeWord, by simp [Program.encodeWords, h], ?_⟩
    cases w with
    | instr i => exact isBytesOf_toWord _
    | raw b => exact isBytesOf_toWord _

/-- The decoder on groups of bytes. -/
def decodeGroups (forbidRaw : Bool) : Nat → List Bytes4 → Except (Nat × InstrDecodingError) Program
  | _, [] => .ok []
  | i, b :: rest =>
    match Instr.decode b with
    | .ok instr => do .ok (.instr instr :: (← decodeGroups forbidRaw (i + 1) rest))
    | .error err =>
      if forbidRaw then .error (i, err) else do .ok (.raw b :: (← decodeGroups forbidRaw (i + 1) rest))

theorem decodeLoop_groups (prog : List U8) (fr : Bool) : ∀ (n i : Nat) (rest : List U8),
    prog.drop (i * 4) = rest → rest.length = 4 * n → decodeLoop prog fr i n = decodeGroups fr i (groups4 rest)
  | 0, i, rest, _, hl => by
    have : rest = [] := List.length_eq_zero_iff.mp (by omega)
    subst this; rfl
  | n + 1, i, rest, hd, hl => by
    match rest, hl with
    | a :: b :: c :: d :: rest, hl =>
      have get : ∀ k, k < 4 → prog.getD (i * 4 + k) 0 = (a :: b :: c :: d :: rest).getD k 0 := by
        intro k hk
        rw [← hd, List.getD_eq_getElem?_getD, List.getD_eq_getElem?_getD, List.getElem?_drop]
      have hb : bytesAt prog i = ⟨a, b, c, d⟩ := by
        unfold bytesAt
        rw [show prog.getD (i * 4) 0 = a from get 0 (by omega), get 1 (by omega), get 2 (by omega), get 3 (by omega)]
        rfl
      have ih := decodeLoop_groups prog fr n (i + 1) rest (by
        have := congrArg (List.drop 4) hd
        rw [List.drop_drop] at this
        rw [show (i + 1) * 4 = i * 4 + 4 by omega, this]; rfl) (by simp at hl; omega)
      unfold decodeLoop
      show (match Instr.decode (bytesAt prog i) with | .ok instr => _ | .error err => _) = _
      rw [hb]
      show _ = decodeGroups fr i (⟨a, b, c, d⟩ :: groups4 rest)
      unfold decodeGroups
      rw [ih]
    | [], hl => simp at hl
    | [_], hl => simp at hl; omega
    | [_, _], hl => simp at hl; omega
    | [_, _, _], hl => simp at hl; omega

theorem decode_groups {prog : List U8} (h : prog.length % 4 = 0) (fr : Bool) :
    Program.decode prog fr = decodeGroups fr 0 (groups4 prog) := by
  unfold Program.decode
  rw [if_neg (by omega)]
  exact decodeLoop_groups prog fr _ 0 prog (by simp) (by omega)

theorem decodeGroups_raw : ∀ (bs : List Bytes4) (i : Nat),
    decodeGroups false i bs = .ok (bs.map ProgramWord.decode)
  | [], _ => rfl
  | b :: bs, i => by
    unfold decodeGroups
    rw [decodeGroups_raw bs (i + 1)]
    unfold ProgramWord.decode
    cases h : Instr.decode b <;> simp [ProgramWord.decode, h] <;> rfl

/-- **C55**, decoding: a byte string whose length is not a multiple of 4 is refused; otherwise, in raw mode decoding
never fails and every group of 4 bytes becomes the instruction it encodes, or raw data if it encodes none. -/
theorem C55_decode_raw (prog : List U8) :
    (prog.length % 4 ≠ 0 → ∀ fr, Program.decode prog fr = .error (0, .sourceNotMultipleOf4Bytes)) ∧
    (prog.length % 4 = 0 → ∃ p, Program.decode prog false = .ok p ∧ p.length = (groups4 prog).length ∧
      ∀ (k : Nat) (b : Bytes4), (groups4 prog)[k]? = some b →
        (∀ i, Instr.decode b = .ok i → p[k]? = some (.instr i)) ∧
        (∀ e, Instr.decode b = .error e → p[k]? = some (.raw b))) := by
  constructor
  · intro h fr
    unfold Program.decode
    rw [if_pos h]
  · intro h
    refine ⟨_, (decode_groups h false).trans (decodeGroups_raw _ _), by simp, ?_⟩
    intro k b hb
    have : ((groups4 prog).map ProgramWord.decode)[k]? = some (ProgramWord.decode b) := by simp [hb]
    rw [this]
    unfold ProgramWord.decode
    constructor
    · intro i hi; rw [hi]
    · intro e he; rw [he]

theorem decodeGroups_strict : ∀ (bs : List Bytes4) (j : Nat),
    (∀ (p : Program), decodeGroups true j bs = .ok p ↔
      p.length = bs.length ∧ ∀ (k : Nat) (b : Bytes4), bs[k]? = some b → ∃ i, Instr.decode b = .ok i ∧
        p[k]? = some (.instr i)) ∧
    (∀ (n : Nat) (e : InstrDecodingError), decodeGroups true j bs = .error (n, e) ↔
      ∃ k b, n = j + k ∧ bs[k]? = some b ∧ Instr.decode b = .error e ∧
        ∀ k' < k, ∀ b', bs[k']? = some b' → ∃ i, Instr.decode b' = .ok i)
  | [], j => by
    constructor
    · intro p
      constructor
      · intro h; cases h; exact ⟨rfl, by simp⟩
      · rintro ⟨h, _⟩
        rw [List.length_eq_zero_iff.mp h]; rfl
    · intro n e
      constructor
      · intro h; cases h
      · rintro ⟨k, b, _, h, _⟩; simp at h
  | b :: bs, j => by
    have ih := decodeGroups_strict bs (j + 1)
    unfold decodeGroups
    cases hb : Instr.decode b with
    | error err =>
      dsimp only
      rw [if_pos rfl]
      constructor
      · intro p
        constructor
        · intro h; cases h
        · rintro ⟨_, h⟩
          obtain ⟨i, hi, _⟩ := h 0 b rfl
          rw [hb] at hi; cases hi
      · intro n e
        constructor
        · intro h
          cases h
          exact ⟨0, b, rfl, rfl, hb, by omega⟩
        · rintro ⟨k, b', rfl, hk, hd, hall⟩
          cases k with
          | zero =>
            simp at hk; subst hk
            rw [hb] at hd; cases hd; rfl
          | succ k =>
            obtain ⟨i, hi⟩ := hall 0 (by omega) b rfl
            rw [hb] at hi; cases hi
    | ok i =>
      dsimp only
      constructor
      · intro p
        cases hr : decodeGroups true (j + 1) bs with
        | error e =>
          constructor
          · intro h; cases h
          · rintro ⟨hl, h⟩
            exfalso
            have : decodeGroups true (j + 1) bs = .ok p.tail := (ih.1 _).mpr ⟨by simp [hl], by
              intro k b' hk
              obtain ⟨i', h1, h2⟩ := h (k + 1) b' (by simpa using hk)
              exact ⟨i', h1, by simpa using h2⟩⟩
            rw [hr] at this; cases this
        | ok q =>
          have hq := (ih.1 q).mp hr
          constructor
          · intro h
            injection h with h
            subst h
            refine ⟨by simp [hq.1], ?_⟩
            intro k b' hk
            cases k with
            | zero => simp at hk; subst hk; exact ⟨i, hb, rfl⟩
            | succ k => simp at hk ⊢; exact hq.2 k b' hk
          · rintro ⟨hl, h⟩
            have ht : decodeGroups true (j + 1) bs = .ok p.tail := (ih.1 _).mpr ⟨by simp [hl], by
              intro k b' hk
              obtain ⟨i', h1, h2⟩ := h (k + 1) b' (by simpa using hk)
              exact ⟨i', h1, by simpa using h2⟩⟩
            rw [hr] at ht
            injection ht with ht
            obtain ⟨i', h1, h2⟩ := h 0 b rfl
            rw [hb] at h1; injection h1 with h1; subst h1
            cases p with
            | nil => simp at hl
            | cons w p =>
              simp at h2 ht
              subst h2 ht
              rfl
      · intro n e
        have hh := ih.2 n e
        cases hr : decodeGroups true (j + 1) bs with
        | error e' =>
          obtain ⟨n', e'⟩ := e'
          rw [hr] at hh
          constructor
          · intro h
            have h : (Except.error (n', e') : Except _ Program) = .error (n, e) := h
            injection h with h
            obtain ⟨k, b', h1, h2, h3, h4⟩ := hh.mp (by rw [h])
            refine ⟨k + 1, b', by omega, by simpa using h2, h3, ?_⟩
            intro k' hk' b'' hb''
            cases k' with
            | zero => simp at hb''; subst hb''; exact ⟨i, hb⟩
            | succ k' => exact h4 k' (by omega) b'' (by simpa using hb'')
          · rintro ⟨k, b', h1, h2, h3, h4⟩
            cases k with
            | zero => simp at h2; subst h2; rw [hb] at h3; cases h3
            | succ k =>
              have := hh.mpr ⟨k, b', by omega, by simpa using h2, h3, fun k' hk' b'' hb'' =>
                h4 (k' + 1) (by omega) b'' (by simpa using hb'')⟩
              injection this with this
              show (Except.error (n', e') : Except _ Program) = .error (n, e)
              rw [this]
        | ok q =>
          constructor
          · intro h; cases h
          · rintro ⟨k, b', h1, h2, h3, h4⟩
            cases k with
            | zero => simp at h2; subst h2; rw [hb] at h3; cases h3
            | succ k =>
              have := hh.mpr ⟨k, b', by omega, by simpa using h2, h3, fun k' hk' b'' hb'' =>
                h4 (k' + 1) (by omega) b'' (by simpa using hb'')⟩
              rw [hr] at this; cases this

/-- **C55**, strict mode: it succeeds exactly when every group of 4 bytes decodes, giving those instructions in order; it
fails exactly when some group does not, with the index of the first such group and the error of that group. -/
theorem C55_decode_strict {prog : List U8} (h : prog.length % 4 = 0) :
    (∀ p : Program, Program.decode prog true = .ok p ↔
      p.length = (groups4 prog).length ∧
      ∀ (k : Nat) (b : Bytes4), (groups4 prog)[k]? = some b → ∃ i, Instr.decode b = .ok i ∧ p[k]? = some (.instr i)) ∧
    (∀ (k : Nat) (e : InstrDecodingError), Program.decode prog true = .error (k, e) ↔
      ∃ b, (groups4 prog)[k]? = some b ∧ Instr.decode b = .error e ∧
        ∀ k' < k, ∀ b', (groups4 prog)[k']? = some b' → ∃ i, Instr.decode b' = .ok i) := by
  rw [decode_groups h]
  have hs := decodeGroups_strict (groups4 prog) 0
  refine ⟨hs.1, fun k e => (hs.2 k e).trans ?_⟩
  constructor
  · rintro ⟨k', b, h1, h2⟩
    rw [Nat.zero_add] at h1; subst h1
    exact ⟨b, h2⟩
  · rintro ⟨b, h2⟩
    exact ⟨k, b, by omega, h2⟩

theorem preserved_iff (w : ProgramWord) : ProgramWord.decode w.encode = w ↔ Preserved w := by
  cases w with
  | instr i =>
    show (match Instr.decode i.encode with | .ok i => ProgramWord.instr i | .error _ => .raw i.encode) = _ ↔ _
    constructor
    · intro h
      apply (C50_partial i).mp
      cases hd : Instr.decode i.encode with
      | error e => rw [hd] at h; cases h
      | ok j => rw [hd] at h; injection h with h; rw [h]
    · intro h
      rw [(C50_partial i).mpr h]
  | raw b =>
    show (match Instr.decode b with | .ok i => ProgramWord.instr i | .error _ => .raw b) = _ ↔ ∀ i, _
    constructor
    · intro h i hi; rw [hi] at h; cases h
    · intro h
      cases hd : Instr.decode b with
      | error e => rfl
      | ok j => exact absurd hd (h j)

/-- **C55**, partial: decoding an encoded program gives it back exactly when all its words are `Preserved`. The full
claim is false: `C55_refuted`. -/
theorem C55_program_round_trip_partial (p : Program) :
    Program.decode p.encode false = .ok p ↔ ∀ w ∈ p, Preserved w := by
  have h := C55_encode p
  rw [decode_groups (by rw [h.1]; omega), h.2.1, decodeGroups_raw]
  unfold Program.toFoldedBytes
  rw [List.map_map]
  constructor
  · intro he w hw
    injection he with he
    rw [← preserved_iff]
    obtain ⟨k, hk, hkw⟩ := List.mem_iff_getElem.mp hw
    have := congrArg (fun l => l[k]?) he
    simp [List.getElem?_eq_getElem hk, hkw] at this
    exact this
  · intro hp
    congr 1
    calc p.map (ProgramWord.decode ∘ ProgramWord.encode) = p.map id :=
          List.map_congr_left fun w hw => (preserved_iff w).mpr (hp w hw)
      _ = p := List.map_id p

theorem encode_groups {prog : List U8} (h : prog.length % 4 = 0) : (groups4 prog).flatMap Bytes4.toList = prog := by
  match prog, h with
  | a :: b :: c :: d :: rest, h =>
    show [a, b, c, d] ++ (groups4 rest).flatMap Bytes4.toList = _
    rw [encode_groups (prog := rest) (by simp at h; omega)]
    rfl
  | [], h => rfl
  | [_], h => simp at h
  | [_, _], h => simp at h
  | [_, _, _], h => simp at h

theorem toList_inj {b c : Bytes4} {l m : List U8} (h : b.toList ++ l = c.toList ++ m) : b = c ∧ l = m := by
  obtain ⟨b0, b1, b2, b3⟩ := b
  obtain ⟨c0, c1, c2, c3⟩ := c
  simp [Bytes4.toList] at h
  obtain ⟨h0, h1, h2, h3, h4⟩ := h
  subst h0 h1 h2 h3
  exact ⟨rfl, h4⟩

theorem encode_decode_iff (b : Bytes4) : (ProgramWord.decode b).encode = b ↔ Canonical b := by
  unfold ProgramWord.decode Canonical
  cases hd : Instr.decode b with
  | error e => exact ⟨fun _ i hi => (by cases hi), fun _ => rfl⟩
  | ok i =>
    constructor
    · intro h j hj; injection hj with hj; subst hj; exact h
    · intro h; exact h i rfl

/-- **C55**, partial: decoding an aligned byte string in raw mode and encoding the result gives the bytes back exactly
when all its groups are `Canonical`. The full claim is false: `C55_bytes_refuted`. -/
theorem C55_bytes_round_trip_partial {prog : List U8} (h : prog.length % 4 = 0) :
    ∃ p, Program.decode prog false = .ok p ∧ (p.encode = prog ↔ ∀ b ∈ groups4 prog, Canonical b) := by
  refine ⟨_, (decode_groups h false).trans (decodeGroups_raw _ _), ?_⟩
  have key : ∀ bs : List Bytes4, Program.encode (bs.map ProgramWord.decode) = bs.flatMap Bytes4.toList ↔
      ∀ b ∈ bs, Canonical b := by
    intro bs
    induction bs with
    | nil => exact ⟨fun _ b hb => (by cases hb), fun _ => rfl⟩
    | cons b bs ih =>
      have e1 : Program.encode ((b :: bs).map ProgramWord.decode) =
        (ProgramWord.decode b).encode.toList ++ Program.encode (bs.map ProgramWord.decode) := rfl
      have e2 : (b :: bs).flatMap Bytes4.toList = b.toList ++ bs.flatMap Bytes4.toList := rfl
      rw [e1, e2]
      constructor
      · intro he
        obtain ⟨h1, h2⟩ := toList_inj he
        intro c hc
        rcases List.mem_cons.mp hc with rfl | hc
        · exact (encode_decode_iff _).mp h1
        · exact ih.mp h2 c hc
      · intro hall
        rw [(encode_decode_iff b).mpr (hall b (List.mem_cons_self ..)),
          ih.mpr fun c hc => hall c (List.mem_cons_of_mem _ hc)]
  have := key (groups4 prog)
  rw [encode_groups h] at this
  exact this

/-- **C55** is false: a program with `cpy a0, a1`, or with raw data that happen to be an instruction, is not given
back. -/
theorem C55_refuted : (∃ p : Program, Program.decode p.encode false ≠ .ok p ∧ ∃ i, p = [.instr i]) ∧
    ∃ p : Program, Program.decode p.encode false ≠ .ok p ∧ ∃ b, p = [.raw b] := by
  constructor
  · refine ⟨[.instr (.cpy .a0 (.reg .a1))], ?_, _, rfl⟩
    rw [Ne, C55_program_round_trip_partial]
    intro h
    exact h _ (List.mem_singleton.mpr rfl) ⟨.a1, rfl, by decide⟩
  · refine ⟨[.raw ⟨0xF0, 0, 0, 0⟩], ?_, _, rfl⟩
    rw [Ne, C55_program_round_trip_partial]
    intro h
    exact h _ (List.mem_singleton.mpr rfl) .halt rfl

/-- **C55** is false: the bytes of `halt` with a non-zero parameter decode as `halt`, which encodes differently. -/
theorem C55_bytes_refuted : ∃ (prog : List U8) (p : Program), prog.length % 4 = 0 ∧
    Program.decode prog false = .ok p ∧ p.encode ≠ prog :=
  ⟨[0xF0, 1, 2, 3], [.instr .halt], rfl, rfl, by decide⟩

example : Program.decode [0xF0, 0, 0, 0, 0x00, 1, 2, 3] false = .ok [.instr .halt, .raw ⟨0, 1, 2, 3⟩] ∧
    Program.decode [0xF0, 0, 0, 0, 0x00, 1, 2, 3] true = .error (1, .unknownOpCode 0) := ⟨rfl, rfl⟩
example : Preserved (.raw ⟨0, 1, 2, 3⟩) := fun i h => by cases h

/-! ## C56 -/

/-- **C56**: `append`, `append_all` and `prepend`. -/
theorem C56_append_prepend (p : Program) (w : ProgramWord) (ws : List ProgramWord) :
    p.append w = p ++ [w] ∧ p.appendAll ws = p ++ ws ∧ p.prepend w = [w] ++ p := ⟨rfl, rfl, rfl⟩

/-- **C56**, partial: `prepend_all` inserts the new words in the middle, after as many words as there are new ones, when
the program is at least as long as they are. That is the concatenation (new words, then the program) when there is no
new word. -/
theorem C56_prepend_all_partial (pf : Profile) (p : Program) (ws : List ProgramWord) (h : ws.length ≤ p.length)
    (hl : p.length < 2 ^ 64) :
    p.prependAll pf ws = some (p.take ws.length ++ ws ++ p.drop ws.length) := by
  have hsub : pf.subUsize p.length ws.length = some (p.length - ws.length) := by
    cases pf with
    | debug => exact if_pos h
    | release =>
      show some _ = some _
      congr 1
      rw [show p.length + 2 ^ 64 - ws.length = (p.length - ws.length) + 2 ^ 64 by omega, Nat.add_mod_right,
        Nat.mod_eq_of_lt (by omega)]
  unfold Program.prependAll
  rw [hsub]
  have h1 : (p ++ ws).drop ws.length = p.drop ws.length ++ ws := List.drop_append_of_le_length h
  have h2 : (p ++ ws).take ws.length = p.take ws.length := List.take_append_of_le_length h
  have h3 : (p.drop ws.length).length = p.length - ws.length := List.length_drop
  have h4 : rotateLeft (p.drop ws.length ++ ws) (p.length - ws.length) = some (ws ++ p.drop ws.length) := by
    unfold rotateLeft
    rw [if_pos (by simp), ← h3, List.drop_left, List.take_left]
  simp only [Option.bind_eq_bind, Option.bind_some, h1, h2, h4]
  simp

theorem subUsize_release {a b : Nat} (h : a < b) (hb : b < 2 ^ 63) :
    ∃ k, a < k ∧ Profile.release.subUsize a b = some k := by
  refine ⟨(a + 2 ^ 64 - b) % 2 ^ 64, ?_, ?_⟩
  · omega
  · unfold Profile.subUsize; exact Eq.refl _

theorem rotateLeft_none {α : Type} {p ws : List α} {k : Nat} (h : p.length < k) :
    rotateLeft ((p ++ ws).drop ws.length) k = none := by
  unfold rotateLeft
  exact if_neg (by rw [List.length_drop, List.length_append]; omega)

/-- **C56**: when there are more new words than words in the program, `prepend_all` crashes, in both profiles. -/
theorem C56_prepend_all_crashes (pf : Profile) (p : Program) (ws : List ProgramWord) (h : p.length < ws.length)
    (hl : ws.length < 2 ^ 63) : p.prependAll pf ws = none := by
  unfold Program.prependAll
  cases pf with
  | debug =>
    have : Profile.debug.subUsize p.length ws.length = none := if_neg (by omega)
    rw [this]; rfl
  | release =>
    obtain ⟨k, hk, this⟩ := subUsize_release h hl
    rw [this]
    simp only [Option.bind_eq_bind, Option.bind_some, rotateLeft_none hk, Option.bind_none]

/-- **C56** is false: prepending `halt` to a program of two other words puts it second; prepending two words to an empty
program crashes. -/
theorem C56_refuted :
    (∃ (p : Program) (ws : List ProgramWord), ∀ pf, ∃ q, p.prependAll pf ws = some q ∧ q ≠ ws ++ p) ∧
    ∃ (p : Program) (ws : List ProgramWord), ∀ pf, p.prependAll pf ws = none := by
  constructor
  · refine ⟨[.raw ⟨1, 1, 1, 1⟩, .raw ⟨2, 2, 2, 2⟩], [.instr .halt],
      fun pf => ⟨[.raw ⟨1, 1, 1, 1⟩, .instr .halt, .raw ⟨2, 2, 2, 2⟩], ?_, ?_⟩⟩
    · exact C56_prepend_all_partial pf _ _ (by decide) (by decide)
    · decide
  · exact ⟨[], [.instr .halt], fun pf => C56_prepend_all_crashes pf _ _ (by decide) (by decide)⟩

end Lrvm
