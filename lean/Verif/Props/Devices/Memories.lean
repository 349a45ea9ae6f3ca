import Verif.Lemmas.Component
import Verif.Props.Hardware

/-!
# Memory components: C64, C65, C66, C73 (memories), C74
-/

namespace Lrvm

open Spec

variable {pf : Profile}

/-- A component that keeps a list of words, like `Ram` and `PersistentMem`. -/
structure WordArray (D : Type) [Bus D] where
  storage : D → List Word
  read : ∀ d a ex w, (storage d)[a.toNat / 4]? = some w → Bus.read d a ex = some (d, w, ex)
  write : ∀ d a w ex, a.toNat / 4 < (storage d).length →
    ∃ d', Bus.write d a w ex = some (d', ex) ∧ storage d' = (storage d).set (a.toNat / 4) w ∧
      ∀ pf, Bus.metadata pf d' = Bus.metadata pf d
  reset : ∀ d, ∃ d', Bus.reset d = some d' ∧ storage d' = List.replicate (storage d).length 0 ∧
      ∀ pf, Bus.metadata pf d' = Bus.metadata pf d

def ramArray : WordArray Ram where
  storage := Ram.storage
  read d a ex w h := by
    show (do let w ← vecRead d.storage a; some (d, w, ex)) = _
    unfold vecRead; rw [h]; rfl
  write d a w ex h := by
    refine ⟨{ d with storage := d.storage.set (a.toNat / 4) w }, ?_, rfl, fun _ => rfl⟩
    show (do let st ← vecWrite d.storage a w; some ({ d with storage := st }, ex)) = _
    unfold vecWrite; rw [if_pos h]; rfl
  reset d := ⟨_, rfl, rfl, fun _ => rfl⟩

def flashArray : WordArray PersistentMem where
  storage := PersistentMem.storage
  read d a ex w h := by
    show (do let w ← vecRead d.storage a; some (d, w, ex)) = _
    unfold vecRead; rw [h]; rfl
  write d a w ex h := by
    refine ⟨{ d with storage := d.storage.set (a.toNat / 4) w }, ?_, rfl, fun _ => rfl⟩
    show (do let st ← vecWrite d.storage a w; some ({ d with storage := st }, ex)) = _
    unfold vecWrite; rw [if_pos h]; rfl
  reset d := ⟨_, rfl, rfl, fun _ => rfl⟩

section
variable {D : Type} [Bus D] (A : WordArray D)

/-- One request within the contract, on the stored words. -/
theorem WordArray.serve {d : D} {size : Nat} (hs : size ≤ 4 * (A.storage d).length) (r : Req) (hr : r.Within size) :
    ∃ d' a, serve d r = some (d', a) ∧ (A.storage d').length = (A.storage d).length ∧
      (∀ pf, Bus.metadata pf d' = Bus.metadata pf d) ∧
      (match r with
        | .read a' ex => ∃ w, a = .value w ex ∧ (A.storage d)[a'.toNat / 4]? = some w ∧ d' = d
        | .write a' w ex => a = .wrote ex ∧ A.storage d' = (A.storage d).set (a'.toNat / 4) w
        | .reset => a = .done ∧ A.storage d' = List.replicate (A.storage d).length 0) := by
  cases r with
  | read a ex =>
    have hlt : a.toNat / 4 < (A.storage d).length := by have := hr.2; omega
    have hg := List.getElem?_eq_getElem hlt
    refine ⟨d, _, ?_, rfl, fun _ => rfl, _, rfl, hg, rfl⟩
    show (Bus.read d a ex).map _ = _
    rw [A.read d a ex _ hg]; rfl
  | write a w ex =>
    have hlt : a.toNat / 4 < (A.storage d).length := by have := hr.2; omega
    obtain ⟨d', h1, h2, h3⟩ := A.write d a w ex hlt
    refine ⟨d', _, ?_, by rw [h2, List.length_set], h3, rfl, h2⟩
    show (Bus.write d a w ex).map _ = _
    rw [h1]; rfl
  | reset =>
    obtain ⟨d', h1, h2, h3⟩ := A.reset d
    refine ⟨d', _, ?_, by rw [h2, List.length_replicate], h3, rfl, h2⟩
    show (Bus.reset d).map _ = _
    rw [h1]; rfl

theorem WordArray.serveAll {d : D} {size : Nat} (hs : size ≤ 4 * (A.storage d).length) {rs : List Req}
    (hr : ∀ r ∈ rs, r.Within size) :
    ∃ d' as, serveAll d rs = some (d', as) ∧ (A.storage d').length = (A.storage d).length ∧
      (∀ pf, Bus.metadata pf d' = Bus.metadata pf d) ∧
      ∀ a : Word, a.toNat % 4 = 0 → (∀ r ∈ rs, r.Spares a) → (A.storage d')[a.toNat / 4]? = (A.storage d)[a.toNat / 4]? := by
  induction rs generalizing d with
  | nil => exact ⟨d, [], rfl, rfl, fun _ => rfl, fun _ _ _ => rfl⟩
  | cons r rs ih =>
    obtain ⟨d1, a1, h1, hl, hm, heff⟩ := A.serve hs r (hr r List.mem_cons_self)
    obtain ⟨d2, as, h2, hl2, hm2, hk⟩ := ih (d := d1) (by rw [hl]; exact hs) fun r h => hr r (List.mem_cons_of_mem _ h)
    refine ⟨d2, a1 :: as, serveAll_cons h1 h2, hl2.trans hl, fun pf => (hm2 pf).trans (hm pf), ?_⟩
    intro a ha hsp
    rw [hk a ha fun r h => hsp r (List.mem_cons_of_mem _ h)]
    have h0 := hsp r List.mem_cons_self
    cases r with
    | read b ex => obtain ⟨_, _, _, rfl⟩ := heff; rfl
    | write b w ex =>
      have hb := (hr _ List.mem_cons_self).1
      rw [heff.2, List.getElem?_set_ne]
      intro h
      exact h0 (BitVec.eq_of_toNat_eq (by omega))
    | reset => exact absurd h0 id

theorem WordArray.quiet {d : D} {size : Nat} (hs : size ≤ 4 * (A.storage d).length) {rs : List Req}
    (hr : ∀ r ∈ rs, r.Within size) {d' : D} {as : List Answer} (h : Spec.serveAll d rs = some (d', as)) :
    AllQuiet rs as := by
  induction rs generalizing d as with
  | nil => cases h; exact trivial
  | cons r rs ih =>
    obtain ⟨d1, a1, as1, h1, h2, rfl⟩ := serveAll_cons_inv h
    obtain ⟨d1', a1', h1', hl, _, heff⟩ := A.serve hs r (hr r List.mem_cons_self)
    rw [h1] at h1'; cases h1'
    refine ⟨?_, ih (d := d1) (by rw [hl]; exact hs) (fun r h => hr r (List.mem_cons_of_mem _ h)) h2⟩
    cases r with
    | read b ex => obtain ⟨w, rfl, _⟩ := heff; exact rfl
    | write b w ex => obtain ⟨rfl, _⟩ := heff; exact rfl
    | reset => obtain ⟨rfl, _⟩ := heff; exact trivial

theorem within_left {rs rs' : List Req} {size : Nat} (h : ∀ r ∈ rs ++ rs', r.Within size) :
    (∀ r ∈ rs, r.Within size) ∧ ∀ r ∈ rs', r.Within size :=
  ⟨fun r hr => h r (List.mem_append.mpr (.inl hr)), fun r hr => h r (List.mem_append.mpr (.inr hr))⟩

/-- State after `rs ++ r :: rs'` when `rs'` spares `a`. -/
theorem WordArray.after {d d' : D} {size : Nat} (hs : size ≤ 4 * (A.storage d).length) {rs rs' : List Req} {r : Req}
    (hr : ∀ x ∈ rs ++ r :: rs', x.Within size) {a : Word} (ha : a.toNat % 4 = 0) (hsp : ∀ x ∈ rs', x.Spares a)
    {as : List Answer} (h : Spec.serveAll d (rs ++ r :: rs') = some (d', as)) :
    ∃ d1 d2, (A.storage d1).length = (A.storage d).length ∧ (A.storage d2).length = (A.storage d).length ∧
      (∃ a, Spec.serve d1 r = some (d2, a)) ∧ (A.storage d')[a.toNat / 4]? = (A.storage d2)[a.toNat / 4]? := by
  obtain ⟨hw1, hw2⟩ := within_left hr
  obtain ⟨d1, as1, as2, h1, h2, _⟩ := serveAll_append_inv h
  obtain ⟨d1', _, h1', hl1, _⟩ := A.serveAll hs hw1
  rw [h1] at h1'; cases h1'
  obtain ⟨d2, a2, as3, h3, h4, _⟩ := serveAll_cons_inv h2
  obtain ⟨d2', a2', h3', hl2, _, _⟩ := A.serve (d := d1) (by rw [hl1]; exact hs) r (hw2 r List.mem_cons_self)
  rw [h3] at h3'; cases h3'
  obtain ⟨d3, _, h4', hl3, _, hk⟩ := A.serveAll (d := d2) (size := size) (by rw [hl2, hl1]; exact hs)
    (fun x hx => hw2 x (List.mem_cons_of_mem _ hx))
  rw [h4] at h4'; cases h4'
  exact ⟨d1, d2, hl1, hl2.trans hl1, ⟨a2, h3⟩, hk a ha hsp⟩

/-- The components with a list of words are word memories. -/
theorem WordArray.memory {d : D} {size : Nat} (hs : size ≤ 4 * (A.storage d).length) (hadv : Advertises pf d size) :
    WordMemory pf d size (fun i => ((A.storage d)[i]?).getD 0) where
  serves rs hr := by
    obtain ⟨d', as, h1, _, hm, _⟩ := A.serveAll hs hr
    refine ⟨d', as, h1, ?_, A.quiet hs hr h1⟩
    obtain ⟨md, h2, h3⟩ := hadv
    exact ⟨md, by rw [hm]; exact h2, h3⟩
  written rs rs' a w ex ex' d' as hr hsp h := by
    have hw := (within_left hr).2 _ List.mem_cons_self
    obtain ⟨d1, d2, hl1, hl2, ⟨x, hx⟩, hk⟩ := A.after hs hr hw.1 hsp h
    obtain ⟨d2', x', hx', _, _, heff⟩ := A.serve (d := d1) (by rw [hl1]; exact hs) (.write a w ex') hw
    rw [hx] at hx'; cases hx'
    refine A.read d' a ex w ?_
    have := hw.2
    rw [hk, heff.2, List.getElem?_set_self (by rw [hl1]; omega)]
  zeroed rs rs' a ex d' as hr hsp ha hlt h := by
    obtain ⟨d1, d2, hl1, hl2, ⟨x, hx⟩, hk⟩ := A.after hs hr ha hsp h
    obtain ⟨d2', x', hx', _, _, heff⟩ := A.serve (d := d1) (size := size) (by rw [hl1]; exact hs) .reset trivial
    rw [hx] at hx'; cases hx'
    refine A.read d' a ex 0 ?_
    rw [hk, heff.2, List.getElem?_replicate, if_pos (by rw [hl1]; omega)]
  initial rs a ex d' as hr hsp ha hlt h := by
    obtain ⟨d1, _, h1, hl, _, hk⟩ := A.serveAll hs hr
    rw [h] at h1; cases h1
    refine A.read d' a ex _ ?_
    rw [hk a ha hsp, List.getElem?_eq_getElem (by omega)]; rfl

end

/-! ## C64: RAM -/

theorem word_div4 (x : Word) : (x / 4).toNat = x.toNat / 4 := by rw [BitVec.toNat_udiv]; rfl

/-- `size * 4` of a word count whose byte size fits. -/
theorem mul4 {x : Word} (h : x.toNat * 4 < 2 ^ 32) : ∃ y, pf.mul x 4 = some y ∧ y.toNat = x.toNat * 4 := by
  have hn : (x * 4).toNat = x.toNat * 4 := by
    rw [BitVec.toNat_mul]; exact Nat.mod_eq_of_lt h
  cases pf with
  | release => exact ⟨_, rfl, hn⟩
  | debug => exact ⟨_, if_pos h, hn⟩

/-- A component whose metadata is `DeviceMetadata::new(hw_id, words * 4, ..).encode()`. -/
theorem advertises_words {D : Type} [Bus D] {d : D} {x : Word} {hw : U64} {cat : DeviceCategory}
    (h : x.toNat * 4 < 2 ^ 32)
    (hm : Bus.metadata pf d = (do
      let bytes ← pf.mul x 4
      let m ← DeviceMetadata.new hw bytes cat none none
      m.encode)) : Advertises pf d (x.toNat * 4) := by
  obtain ⟨y, h1, h2⟩ := mul4 (pf := pf) h
  obtain ⟨m, h3, h4⟩ := newEncode_size (hw := hw) (size := y) (cat := cat) (md := none) (dt := none) (by omega)
  refine ⟨m, ?_, by rw [h4, h2]⟩
  rw [hm, h1]; exact h3

theorem ofNat_toNat_lt {n : Nat} (h : n < 4294967296) : (BitVec.ofNat 32 n).toNat = n := by
  rw [BitVec.toNat_ofNat]; exact Nat.mod_eq_of_lt h

theorem Ram.advertises (d : Ram) (h : d.size.toNat * 4 < 2 ^ 32) : Advertises pf d (d.size.toNat * 4) :=
  advertises_words h rfl

theorem PersistentMem.advertises (d : PersistentMem) (h : d.size.toNat * 4 < 2 ^ 32) :
    Advertises pf d (d.size.toNat * 4) :=
  advertises_words h rfl

theorem BootRom.advertises (d : BootRom) (h : d.size.toNat * 4 < 2 ^ 32) : Advertises pf d (d.size.toNat * 4) :=
  advertises_words h rfl

theorem word_mod4 {x : Word} (h : ¬ x % 4 ≠ 0) : x.toNat % 4 = 0 := by
  have := congrArg BitVec.toNat (Decidable.not_not.mp h)
  rw [BitVec.toNat_umod] at this; exact this

/-- **C64**, `Ram::new(size)`: a word memory of `size` bytes, initially 0. -/
theorem C64_new {size : Word} {hw : U64} {d : Ram} (h : Ram.new size hw = some d) :
    WordMemory pf d size.toNat (fun _ => 0) := by
  unfold Ram.new at h
  split at h
  · cases h
  · split at h
    · cases h
    · next h4 =>
      cases h
      have h4 := word_mod4 h4
      have hlt := size.isLt
      have hadv := Ram.advertises (pf := pf) ⟨List.replicate size.toNat 0, size / 4, hw⟩ (by
        show (size / 4).toNat * 4 < _; rw [word_div4]; omega)
      have e : (size / 4).toNat * 4 = size.toNat := by rw [word_div4]; omega
      rw [show (Ram.mk (List.replicate size.toNat 0) (size / 4) hw).size = size / 4 from rfl, e] at hadv
      have := ramArray.memory (pf := pf) (d := ⟨List.replicate size.toNat 0, size / 4, hw⟩) (size := size.toNat)
        (by show _ ≤ 4 * (List.replicate size.toNat (0 : Word)).length; simp; omega) hadv
      have hz : (fun i : Nat => ((ramArray.storage (Ram.mk (List.replicate size.toNat 0) (size / 4) hw))[i]?).getD 0) =
          fun _ => 0 := by
        funext i
        show ((List.replicate size.toNat (0 : Word))[i]?).getD 0 = 0
        rw [List.getElem?_replicate]; split <;> rfl
      rw [hz] at this
      exact this

/-- **C64**, `Ram::from(storage)`: a word memory with that initial content, of which it only advertises a quarter. -/
theorem C64_from {st : List Word} {hw : U64} {d : Ram} (h : Ram.from st hw = some d) :
    WordMemory pf d (st.length / 4 * 4) (fun i => (st[i]?).getD 0) := by
  unfold Ram.from at h
  split at h
  · cases h
  · next hlen =>
    cases h
    have e : (BitVec.ofNat 32 st.length / 4).toNat = st.length / 4 := by rw [word_div4, ofNat_toNat_lt (by omega)]
    have hadv := Ram.advertises (pf := pf) ⟨st, BitVec.ofNat 32 st.length / 4, hw⟩ (by
      show (BitVec.ofNat 32 st.length / 4).toNat * 4 < _; rw [e]; omega)
    rw [show (Ram.mk st (BitVec.ofNat 32 st.length / 4) hw).size = BitVec.ofNat 32 st.length / 4 from rfl, e] at hadv
    exact ramArray.memory (d := ⟨st, BitVec.ofNat 32 st.length / 4, hw⟩) (by show _ ≤ 4 * st.length; omega) hadv

/-- The words of `storage` cut or padded to `k` words. -/
theorem resize_length (st : List Word) (k : Nat) :
    (st.take k ++ List.replicate (k - st.length) (0 : Word)).length = k := by
  rw [List.length_append, List.length_take, List.length_replicate]; omega

theorem resize_get (st : List Word) {k i : Nat} (hi : i < k) :
    ((st.take k ++ List.replicate (k - st.length) (0 : Word))[i]?).getD 0 = (st[i]?).getD 0 := by
  by_cases h : i < st.length
  · rw [List.getElem?_append_left (by rw [List.length_take]; omega), List.getElem?_take, if_pos hi]
  · rw [List.getElem?_append_right (by rw [List.length_take]; omega), List.getElem?_replicate,
      List.getElem?_eq_none (l := st) (by omega)]
    split <;> rfl

theorem WordMemory.congr {D : Type} [Bus D] {d : D} {size : Nat} {f g : Nat → Word} (h : WordMemory pf d size f)
    (he : ∀ i, i * 4 < size → f i = g i) : WordMemory pf d size g where
  serves := h.serves
  written := h.written
  zeroed := h.zeroed
  initial rs a ex d' as h1 h2 h3 h4 h5 := by rw [← he _ (by omega)]; exact h.initial rs a ex d' as h1 h2 h3 h4 h5

/-- **C64**, `Ram::from_with_size(storage, size)`: a word memory of `size` bytes whose initial content is `storage` followed
by zeros. -/
theorem C64_from_with_size {st : List Word} {size : Word} {hw : U64} {d : Ram}
    (h : Ram.fromWithSize st size hw = some d) : WordMemory pf d size.toNat (fun i => (st[i]?).getD 0) := by
  unfold Ram.fromWithSize at h
  repeat' split at h
  all_goals first | (cases h; done) | skip
  next h4 =>
  cases h
  have h4 := word_mod4 h4
  have hlt := size.isLt
  have e : (size / 4).toNat * 4 = size.toNat := by rw [word_div4]; omega
  have hadv := Ram.advertises (pf := pf)
    ⟨st.take (size / 4).toNat ++ List.replicate ((size / 4).toNat - st.length) 0, size / 4, hw⟩ (by
      show (size / 4).toNat * 4 < _; rw [e]; exact hlt)
  rw [show (Ram.mk (st.take (size / 4).toNat ++ List.replicate ((size / 4).toNat - st.length) 0) (size / 4) hw).size
    = size / 4 from rfl, e] at hadv
  refine WordMemory.congr (ramArray.memory (by
    show size.toNat ≤ 4 * (st.take (size / 4).toNat ++ List.replicate ((size / 4).toNat - st.length) (0 : Word)).length
    rw [resize_length]; omega) hadv) ?_
  intro i hi
  exact resize_get st (by omega)

/-- A history within the contract of a 16-byte RAM: the last write counts, a reset clears. -/
example : ∃ d : Ram, Ram.new 16 7 = some d ∧
    (∀ r ∈ [Req.write 4 0x11 0, .read 8 0, .write 8 0x22 0, .write 4 0x33 5], r.Within 16) ∧
    (serveAll d [.write 4 0x11 0, .read 8 0, .write 8 0x22 0, .write 4 0x33 5, .read 4 0, .reset, .read 4 0]).map (·.2) =
      some [.wrote 0, .value 0 0, .wrote 0, .wrote 5, .value 0x33 0, .done, .value 0 0] := by
  refine ⟨_, rfl, ?_, rfl⟩
  intro r hr
  simp only [List.mem_cons, List.not_mem_nil, or_false] at hr
  rcases hr with rfl | rfl | rfl | rfl <;> exact ⟨rfl, by decide⟩

example : ∃ d : Ram, Ram.from [1, 2, 3, 4, 5] 7 = some d := ⟨_, rfl⟩
example : ∃ d : Ram, Ram.fromWithSize [1, 2, 3] 16 7 = some d ∧
    (serveAll d [.read 8 0, .read 12 0]).map (·.2) = some [.value 3 0, .value 0 0] := ⟨_, rfl, rfl⟩

/-! ## C65: boot ROM -/

/-- The boot ROM was built to hold `prog`. -/
def BuiltWith (rom : BootRom) (prog : List Word) : Prop :=
  ∃ hw, BootRom.new prog hw = some rom ∨ ∃ size, BootRom.withSize prog size hw = some rom

theorem BuiltWith.fields {rom : BootRom} {prog : List Word} (h : BuiltWith rom prog) :
    rom.storage = prog ∧ rom.len.toNat = prog.length := by
  obtain ⟨hw, h | ⟨size, h⟩⟩ := h
  · unfold BootRom.new at h
    split at h
    · cases h
    · cases h; exact ⟨rfl, ofNat_toNat_lt (by omega)⟩
  · unfold BootRom.withSize at h
    repeat' split at h
    all_goals first | (cases h; done) | skip
    cases h; exact ⟨rfl, ofNat_toNat_lt (by omega)⟩

theorem BuiltWith.read {rom : BootRom} {prog : List Word} (h : BuiltWith rom prog) (a : Word) (ex : U16) :
    Bus.read rom a ex = some (rom, (prog[a.toNat / 4]?).getD 0, ex) := by
  obtain ⟨h1, h2⟩ := h.fields
  show (if a / 4 < rom.len then (do let w ← rom.storage[(a / 4).toNat]?; some (rom, w, ex)) else some (rom, 0, ex)) = _
  rw [word_div4, h1]
  split
  · next hlt =>
    rw [BitVec.lt_def, word_div4, h2] at hlt
    rw [List.getElem?_eq_getElem hlt]; rfl
  · next hge =>
    rw [BitVec.lt_def, word_div4, h2] at hge
    rw [List.getElem?_eq_none (by omega)]; rfl

theorem bootRom_serve (rom : BootRom) (r : Req) {d' : BootRom} {a : Answer} (h : serve rom r = some (d', a)) : d' = rom := by
  cases r with
  | read b ex =>
    simp only [serve, Option.map_eq_some_iff] at h
    obtain ⟨⟨d1, w, ex'⟩, h1, h2⟩ := h
    injection h2 with h2 _
    subst h2
    have h1 : (if b / 4 < rom.len then (do let w ← rom.storage[(b / 4).toNat]?; some (rom, w, ex)) else some (rom, 0, ex))
      = some (d1, w, ex') := h1
    split at h1
    · simp only [Option.bind_eq_bind, Option.bind_eq_some_iff] at h1
      obtain ⟨_, _, h1⟩ := h1; cases h1; rfl
    · cases h1; rfl
  | write b w ex => cases h; rfl
  | reset => cases h; rfl

/-- **C65**. Whatever requests (aligned or not, in range or not, resets included) a boot ROM built with the program
`prog` has received, a read returns the word of `prog` at that offset, 0 past its end, without exception; a write raises
`MemoryNotWritable` (0x3100) and changes nothing. -/
theorem C65 {rom d' : BootRom} {prog : List Word} (hb : BuiltWith rom prog) {rs : List Req} {as : List Answer}
    (h : serveAll rom rs = some (d', as)) (a w : Word) (ex : U16) :
    Bus.read d' a ex = some (d', (prog[a.toNat / 4]?).getD 0, ex) ∧ Bus.write d' a w ex = some (d', 0x3100) := by
  have : d' = rom := serveAll_pres (I := fun d => d = rom)
    (fun d r d'' _ hd hs => (bootRom_serve d r hs).trans hd) h rfl
  subst this
  exact ⟨hb.read a ex, rfl⟩

/-- **C65**: every history is served, panic-free, whatever its requests. -/
theorem C65_serves {rom : BootRom} {prog : List Word} (hb : BuiltWith rom prog) (rs : List Req) :
    ∃ as, serveAll rom rs = some (rom, as) := by
  induction rs with
  | nil => exact ⟨_, rfl⟩
  | cons r rs ih =>
    obtain ⟨as, h⟩ := ih
    cases r with
    | read b ex => exact ⟨_, serveAll_cons (by simp only [serve, hb.read]; rfl) h⟩
    | write b w ex => exact ⟨_, serveAll_cons rfl h⟩
    | reset => exact ⟨_, serveAll_cons rfl h⟩

example : ∃ rom, BootRom.withSize [1, 2, 3] 16 7 = some rom ∧
    (serveAll rom [.write 4 9 0, .read 4 0, .reset, .read 8 0, .read 12 0]).map (·.2) =
      some [.wrote 0x3100, .value 2 0, .done, .value 3 0, .value 0 0] := ⟨_, rfl, rfl⟩

/-! ## C66: persistent memory -/

theorem C66_new_partial {size : Word} {hw : U64} {d : PersistentMem} (h : PersistentMem.new size hw = some d) :
    WordMemory pf d size.toNat (fun _ => 0) := by
  unfold PersistentMem.new at h
  split at h
  · cases h
  · split at h
    · cases h
    · next h4 =>
      cases h
      have h4 := word_mod4 h4
      have hlt := size.isLt
      have hadv := PersistentMem.advertises (pf := pf) ⟨List.replicate size.toNat 0, size / 4, hw⟩ (by
        show (size / 4).toNat * 4 < _; rw [word_div4]; omega)
      have e : (size / 4).toNat * 4 = size.toNat := by rw [word_div4]; omega
      rw [show (PersistentMem.mk (List.replicate size.toNat 0) (size / 4) hw).size = size / 4 from rfl, e] at hadv
      refine WordMemory.congr (flashArray.memory (by
        show _ ≤ 4 * (List.replicate size.toNat (0 : Word)).length; simp; omega) hadv) ?_
      intro i _
      show ((List.replicate size.toNat (0 : Word))[i]?).getD 0 = 0
      rw [List.getElem?_replicate]; split <;> rfl

theorem C66_from_partial {st : List Word} {hw : U64} {d : PersistentMem} (h : PersistentMem.from st hw = some d) :
    WordMemory pf d (st.length / 4 * 4) (fun i => (st[i]?).getD 0) := by
  unfold PersistentMem.from at h
  split at h
  · cases h
  · next hlen =>
    cases h
    have e : (BitVec.ofNat 32 st.length / 4).toNat = st.length / 4 := by rw [word_div4, ofNat_toNat_lt (by omega)]
    have hadv := PersistentMem.advertises (pf := pf) ⟨st, BitVec.ofNat 32 st.length / 4, hw⟩ (by
      show (BitVec.ofNat 32 st.length / 4).toNat * 4 < _; rw [e]; omega)
    rw [show (PersistentMem.mk st (BitVec.ofNat 32 st.length / 4) hw).size = BitVec.ofNat 32 st.length / 4 from rfl, e] at hadv
    exact flashArray.memory (d := ⟨st, BitVec.ofNat 32 st.length / 4, hw⟩) (by show _ ≤ 4 * st.length; omega) hadv

/-- **C66**, what holds: the memory keeps what is written as long as it is not reset; a reset loses everything. -/
theorem C66_from_with_size_partial {st : List Word} {size : Word} {hw : U64} {d : PersistentMem}
    (h : PersistentMem.fromWithSize st size hw = some d) : WordMemory pf d size.toNat (fun i => (st[i]?).getD 0) := by
  unfold PersistentMem.fromWithSize at h
  repeat' split at h
  all_goals first | (cases h; done) | skip
  next h4 =>
  cases h
  have h4 := word_mod4 h4
  have hlt := size.isLt
  have e : (size / 4).toNat * 4 = size.toNat := by rw [word_div4]; omega
  have hadv := PersistentMem.advertises (pf := pf)
    ⟨st.take (size / 4).toNat ++ List.replicate ((size / 4).toNat - st.length) 0, size / 4, hw⟩ (by
      show (size / 4).toNat * 4 < _; rw [e]; exact hlt)
  rw [show (PersistentMem.mk (st.take (size / 4).toNat ++ List.replicate ((size / 4).toNat - st.length) 0) (size / 4) hw).size
    = size / 4 from rfl, e] at hadv
  refine WordMemory.congr (flashArray.memory (by
    show size.toNat ≤ 4 * (st.take (size / 4).toNat ++ List.replicate ((size / 4).toNat - st.length) (0 : Word)).length
    rw [resize_length]; omega) hadv) ?_
  intro i hi
  exact resize_get st (by omega)

/-- **C66** fails: the content of a persistent memory does not survive a reset, whatever was written. -/
theorem C66_reset_refuted {d : PersistentMem} {size : Nat} {f : Nat → Word} (hm : WordMemory pf d size f)
    (a w : Word) (ha : a.toNat % 4 = 0) (hlt : a.toNat < size) :
    ∃ d' as, serveAll d [.write a w 0, .reset] = some (d', as) ∧ Bus.read d' a 0 = some (d', 0, 0) := by
  have hw : ∀ r ∈ [Req.write a w 0, .reset], r.Within size := by
    intro r hr
    simp only [List.mem_cons, List.not_mem_nil, or_false] at hr
    rcases hr with rfl | rfl
    · exact ⟨ha, hlt⟩
    · trivial
  obtain ⟨d', as, h1, _⟩ := hm.serves _ hw
  exact ⟨d', as, h1, hm.zeroed [.write a w 0] [] a 0 d' as hw (by simp) ha hlt h1⟩

example : ∃ d : PersistentMem, PersistentMem.new 16 7 = some d ∧
    (serveAll d [.write 4 0x33 0, .read 4 0, .reset, .read 4 0]).map (·.2) =
      some [.wrote 0, .value 0x33 0, .done, .value 0 0] := ⟨_, rfl, rfl⟩

/-! ## C74: the boot ROM's program survives any program -/

theorem rom_devInv {E : Type} [Bus E] (rom : BootRom) (id : Nat) (cache : List AuxCache) :
    DevInv (D := BootRom ⊕ E) (fun i d => i = id → d = .inl rom) cache where
  read := by
    intro i d a ex d' w ex' hP _ h hi
    cases hP hi
    have h : (Bus.read rom a ex).map (fun x => ((Sum.inl x.1 : BootRom ⊕ E), x.2)) = some (d', w, ex') := h
    obtain ⟨⟨d1, w1, e1⟩, h1, h2⟩ := Option.map_eq_some_iff.mp h
    have := bootRom_serve rom (.read a ex) (d' := d1) (a := .value w1 e1) (by simp only [serve, h1]; rfl)
    injection h2 with h2 _
    rw [← h2, this]
  write := by
    intro i d a w ex d' ex' hP _ h hi
    cases hP hi
    cases h; rfl
  reset := by
    intro i d d' hP h hi
    cases hP hi
    cases h; rfl

/-- **C74**. On a board built with a boot ROM holding `prog` as component `id` (the other components are of any
kind), after any history of host calls — stepping the CPU through any program, resets, mappings, accesses to memory,
register changes — every aligned address where the ROM is mapped reads as its word of `prog` (0 past its end) without
exception, and writing there raises `MemoryNotWritable` and changes nothing. -/
theorem C74 {E : Type} [Bus E] {devs : List (BootRom ⊕ E)} {s t : Machine (BootRom ⊕ E)} {ops : List HostOp}
    {id : Nat} {rom : BootRom} {prog : List Word} (hb : newBoard pf devs = some s) (hid : devs[id]? = some (.inl rom))
    (hrom : BuiltWith rom prog) (hrun : hostRun pf ops s = some t) (ht : TableOk pf t.mappings)
    {m : Mapping} (hm : m ∈ t.mappings) (hmid : m.auxId = id) {a : Word} (hc : covers m a) (ha : a.toNat % 4 = 0)
    (w : Word) (ex : U16) :
    memRead pf t a ex = some ((prog[(a.toNat - m.addr.toNat) / 4]?).getD 0, ex, t) ∧
    memWrite pf t a w ex = some (0x3100, t) := by
  obtain ⟨hcs, _, hdevs, hmaps, _⟩ := newBoard_inv hb
  have hall : AllDev (fun i d => i = id → d = .inl rom) s.devs := by
    intro i d hd hi
    rw [hdevs, hi, hid] at hd
    cases hd; rfl
  obtain ⟨_, hpl, hdev⟩ := hostRun_devInv (rom_devInv rom id s.memCache)
    (by rw [hmaps]; intro m hm; cases hm) hall hrun
  have hlen : t.devs.length = devs.length := by
    rw [← hdevs]; exact (hostRun_keeps hrun).1
  have hget : t.devs[m.auxId]? = some (.inl rom) := by
    have hlt : id < t.devs.length := by
      rw [hlen]; exact (List.getElem?_eq_some_iff.mp hid).1
    rw [hmid]
    have := List.getElem?_eq_getElem hlt
    rw [hdev id _ this rfl] at this
    exact this
  obtain ⟨ho, hr⟩ := C37_read (ex := ex) ht hm hc ha hget
  have hset : t.devs.set m.auxId (.inl rom) = t.devs := by
    apply List.ext_getElem?
    intro i
    rw [List.getElem?_set]
    split
    · next h =>
      subst h
      split
      · exact hget.symm
      · next h => exact absurd (List.getElem?_eq_some_iff.mp hget).1 h
    · rfl
  constructor
  · rw [hr]
    show ((Bus.read rom (a - m.addr) ex).map _).map _ = _
    rw [hrom.read, ho]
    show some (_, ex, { t with devs := t.devs.set m.auxId (.inl rom) }) = _
    rw [hset]
  · rw [C37_write ht hm hc ha hget]
    show some (_, { t with devs := t.devs.set m.auxId (.inl rom) }) = _
    rw [hset]
    rfl

/-- **C74** for boards whose mappings are only made with `map` and `map_contiguous`. -/
theorem C74_no_map_abs {E : Type} [Bus E] {devs : List (BootRom ⊕ E)} {s t : Machine (BootRom ⊕ E)} {ops : List HostOp}
    {id : Nat} {rom : BootRom} {prog : List Word} (hb : newBoard pf devs = some s) (hid : devs[id]? = some (.inl rom))
    (hrom : BuiltWith rom prog) (hops : ∀ op ∈ ops, ∀ a e i, op ≠ .mapAbs a e i) (hrun : hostRun pf ops s = some t)
    {m : Mapping} (hm : m ∈ t.mappings) (hmid : m.auxId = id) {a : Word} (hc : covers m a) (ha : a.toNat % 4 = 0)
    (w : Word) (ex : U16) :
    memRead pf t a ex = some ((prog[(a.toNat - m.addr.toNat) / 4]?).getD 0, ex, t) ∧
    memWrite pf t a w ex = some (0x3100, t) :=
  C74 hb hid hrom hrun (C43_no_overlap_partial hb hops hrun) hm hmid hc ha w ex

/-- A program that tries to overwrite itself: `wea 4, 0, 0x55` twice. -/
example : ∃ s t : Machine Demo.Dev, newBoard .debug (Demo.devices [0xB8040055, 0xB8040055]) = some s ∧
    hostRun .debug [.mapContiguous 0 [0, 1], .reset, .next, .next, .memWrite 4 0x55 0] s = some t ∧
    t.regs.et = 0x01A03100 ∧ ⟨0, 0x11, 0, 0x40⟩ ∈ t.mappings ∧ memRead .debug t 4 0 = some (0xB8040055, 0, t) :=
  ⟨_, _, rfl, rfl, rfl, by decide, rfl⟩

/-! ## C73: the memories -/

/-- **C73** for RAM. -/
theorem C73_ram {d : Ram} {hw : U64} :
    (∀ size, Ram.new size hw = some d → Robust pf d size.toNat) ∧
    (∀ st, Ram.from st hw = some d → Robust pf d (st.length / 4 * 4)) ∧
    (∀ st size, Ram.fromWithSize st size hw = some d → Robust pf d size.toNat) := by
  have key : ∀ {size f}, WordMemory pf d size f → Robust pf d size := fun h rs hr => by
    obtain ⟨d', as, h1, h2, _⟩ := h.serves rs hr
    exact ⟨d', as, h1, h2⟩
  exact ⟨fun _ h => key (C64_new h), fun _ h => key (C64_from h), fun _ _ h => key (C64_from_with_size h)⟩

/-- **C73** for persistent memory. -/
theorem C73_persistent {d : PersistentMem} {hw : U64} :
    (∀ size, PersistentMem.new size hw = some d → Robust pf d size.toNat) ∧
    (∀ st, PersistentMem.from st hw = some d → Robust pf d (st.length / 4 * 4)) ∧
    (∀ st size, PersistentMem.fromWithSize st size hw = some d → Robust pf d size.toNat) := by
  have key : ∀ {size f}, WordMemory pf d size f → Robust pf d size := fun h rs hr => by
    obtain ⟨d', as, h1, h2, _⟩ := h.serves rs hr
    exact ⟨d', as, h1, h2⟩
  exact ⟨fun _ h => key (C66_new_partial h), fun _ h => key (C66_from_partial h), fun _ _ h => key (C66_from_with_size_partial h)⟩

/-- **C73** for boot ROMs whose size fits in 32 bits. -/
theorem C73_bootrom {d : BootRom} {hw : U64} :
    (∀ st, st.length < 2 ^ 30 → BootRom.new st hw = some d → Robust pf d (st.length * 4)) ∧
    (∀ st size, BootRom.withSize st size hw = some d → Robust pf d size.toNat) := by
  constructor
  · intro st hlt h rs hr
    obtain ⟨as, h1⟩ := C65_serves (rom := d) (prog := st) ⟨hw, .inl h⟩ rs
    refine ⟨d, as, h1, ?_⟩
    unfold BootRom.new at h
    split at h
    · cases h
    · cases h
      have e : (BitVec.ofNat 32 st.length).toNat = st.length := ofNat_toNat_lt (by omega)
      have := BootRom.advertises (pf := pf) ⟨st, BitVec.ofNat 32 st.length, BitVec.ofNat 32 st.length, hw⟩
        (by show (BitVec.ofNat 32 st.length).toNat * 4 < _; omega)
      rw [show (BootRom.mk st (BitVec.ofNat 32 st.length) (BitVec.ofNat 32 st.length) hw).size =
        BitVec.ofNat 32 st.length from rfl, e] at this
      exact this
  · intro st size h rs hr
    obtain ⟨as, h1⟩ := C65_serves (rom := d) (prog := st) ⟨hw, .inr ⟨size, h⟩⟩ rs
    refine ⟨d, as, h1, ?_⟩
    unfold BootRom.withSize at h
    repeat' split at h
    all_goals first | (cases h; done) | skip
    next h4 =>
    cases h
    have h4 := word_mod4 h4
    have hlt := size.isLt
    have e : (size / 4).toNat * 4 = size.toNat := by rw [word_div4]; omega
    have := BootRom.advertises (pf := pf) ⟨st, BitVec.ofNat 32 st.length, size / 4, hw⟩
      (by show (size / 4).toNat * 4 < _; omega)
    rw [show (BootRom.mk st (BitVec.ofNat 32 st.length) (size / 4) hw).size = size / 4 from rfl, e] at this
    exact this

example : ∃ d : BootRom, BootRom.new [1, 2, 3] 7 = some d := ⟨_, rfl⟩

end Lrvm
