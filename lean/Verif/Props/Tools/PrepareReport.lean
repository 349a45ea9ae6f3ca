import Verif.Spec.Prepare
import Verif.Model.Tools.Prepare
import Verif.Props.Tools.Prepare
import Verif.Props.Devices.Printing
import Verif.Props.Hardware

/-!
# C100: the report of `prepare_vm`
-/

namespace Lrvm

open Spec Spec.RunLines Spec.Prepare

variable {D : Type} [Bus D] {pf : Profile}

/-! ### Texts -/

theorem hwIdText_text (id : U64) : hwIdText id = hwText id.toNat := by
  have key : ∀ k, padLeft '0' 2 (digits 16 ((id >>> (8 * k)).setWidth 8 : U8).toNat) = pair (id.toNat / 256 ^ k) := by
    intro k
    rw [digits_toDigits (by omega) (by omega), BitVec.toNat_setWidth, BitVec.toNat_ushiftRight, Nat.shiftRight_eq_div_pow,
      Nat.pow_mul]
    rfl
  have k0 := key 0; have k1 := key 1; have k2 := key 2; have k3 := key 3
  have k4 := key 4; have k5 := key 5; have k6 := key 6; have k7 := key 7
  simp only [Nat.pow_zero, Nat.pow_one, Nat.div_one] at k0 k1
  unfold hwIdText hwText
  rw [← k0, ← k1, ← k2, ← k3, ← k4, ← k5, ← k6, ← k7]
  simp [List.intercalate, List.intersperse]

/-- The fate a mapping result stands for. -/
def fateOf : Except MappingError MappingRange → Fate
  | .ok r => .placed r.startAddr.toNat r.endAddr.toNat
  | .error e => .refused e.debugText

theorem componentLine_text (r : AuxMappingStatus) :
    componentLine r = line r.auxId r.auxName r.auxHwId.toNat (fateOf r.auxMapping) := by
  obtain ⟨k, hw, name, m⟩ := r
  unfold componentLine line padRight
  simp only
  rw [hwIdText_text, digits_ten]
  cases m with
  | ok rng =>
    simp only [fateOf, fateText, fmtHex_hex 8]
    simp [padLeft, zeroes]
  | error e =>
    simp only [fateOf, fateText]
    simp [padLeft, zeroes]

theorem failedText_text (n : Nat) : failedText n = message n := by
  unfold failedText message
  rw [fmtDec_ten]
  split <;> simp

/-! ### One component -/

/-- The board while components are being placed: `k` components were treated, the next one goes to address `here`. -/
structure Placing (pf : Profile) (s : Machine D) (k here : Nat) (first : Option Text) : Prop where
  aligned : here % 4 = 0
  le : here ≤ 2 ^ 32
  dbg : pf = .debug → here < 2 ^ 32
  table : TableOk pf s.mappings
  below : ∀ m ∈ s.mappings, m.auxId < k ∧ m.addr.toNat + m.size.toNat ≤ here
  head : (s.mappings = [] ∧ here = 0 ∧ first = none) ∨
    ∃ m ms, s.mappings = m :: ms ∧ m.addr = 0 ∧ first = some m.debugText ∧ 0 < here

variable {s : Machine D} {k here : Nat} {first : Option Text} {c : AuxCache} {a : Word}

theorem Placing.skip (h : Placing pf s k here first) : Placing pf s (k + 1) here first :=
  { h with below := fun m hm => ⟨by have := (h.below m hm).1; omega, (h.below m hm).2⟩ }

theorem dfltEnd_none (ha : a.toNat = here % 2 ^ 32) (hl : here < 2 ^ 32)
    (hb : here + c.size.toNat < 4 ∨ 2 ^ 32 ≤ here + c.size.toNat) : dfltEnd .debug a c.size = none := by
  rw [Nat.mod_eq_of_lt hl] at ha
  unfold dfltEnd Profile.add
  simp only
  by_cases hs : a.toNat + c.size.toNat < 2 ^ 32
  · rw [if_pos hs]
    show Profile.sub .debug (a + c.size) 4 = none
    unfold Profile.sub
    simp only
    rw [if_neg]
    rw [BitVec.toNat_add, Nat.mod_eq_of_lt hs]
    show ¬ 4 ≤ _
    omega
  · rw [if_neg hs]; rfl

theorem dfltEnd_some (ha : a.toNat = here % 2 ^ 32)
    (hb : ¬ (pf = .debug ∧ (here + c.size.toNat < 4 ∨ 2 ^ 32 ≤ here + c.size.toNat))) :
    dfltEnd pf a c.size = some (a + c.size - 4) := by
  cases pf with
  | release => rfl
  | debug =>
    have hb : 4 ≤ here + c.size.toNat ∧ here + c.size.toNat < 2 ^ 32 := by
      refine ⟨Nat.le_of_not_lt fun h => hb ⟨rfl, .inl h⟩, Nat.lt_of_not_le fun h => hb ⟨rfl, .inr h⟩⟩
    rw [Nat.mod_eq_of_lt (by omega)] at ha
    unfold dfltEnd Profile.add
    simp only
    rw [if_pos (by omega)]
    show Profile.sub .debug (a + c.size) 4 = _
    unfold Profile.sub
    simp only
    rw [if_pos]
    rw [BitVec.toNat_add, Nat.mod_eq_of_lt (by omega)]
    show 4 ≤ _
    omega

theorem map_none (h : Placing pf s k here first) (hc : s.memCache[k]? = some c) (ha : a.toNat = here % 2 ^ 32)
    (hb : pf = .debug ∧ (here + c.size.toNat < 4 ∨ 2 ^ 32 ≤ here + c.size.toNat)) : Lrvm.map pf s a k = none := by
  obtain ⟨rfl, hb⟩ := hb
  unfold Lrvm.map
  rw [internalMap_eq, hc]
  dsimp only
  rw [dfltEnd_none ha (h.dbg rfl) hb]

theorem map_decide (hc : s.memCache[k]? = some c) (ha : a.toNat = here % 2 ^ 32)
    (hb : ¬ (pf = .debug ∧ (here + c.size.toNat < 4 ∨ 2 ^ 32 ≤ here + c.size.toNat))) :
    Lrvm.map pf s a k = mapDecide pf s a (a + c.size - 4) k c := by
  unfold Lrvm.map
  rw [internalMap_eq, hc]
  dsimp only
  rw [dfltEnd_some ha hb]
  rfl

theorem Placing.addr (h : Placing pf s k here first) (ha : a.toNat = here % 2 ^ 32) : a % 4 = 0 := by
  apply mod4_nat.mpr
  have := h.aligned
  omega

theorem map_null (h : Placing pf s k here first) (hc : s.memCache[k]? = some c) (ha : a.toNat = here % 2 ^ 32)
    (hb : ¬ (pf = .debug ∧ (here + c.size.toNat < 4 ∨ 2 ^ 32 ≤ here + c.size.toNat))) (hz : c.size.toNat = 0) :
    Lrvm.map pf s a k = some (.error .nullBusSize, s) := by
  rw [map_decide hc ha hb]
  unfold mapDecide
  rw [if_neg (not_not_intro (h.addr ha)), if_pos (BitVec.eq_of_toNat_eq hz)]

theorem size_ne {w : Word} (hz : w.toNat ≠ 0) : w ≠ 0 := fun h => hz (by rw [h]; rfl)

theorem map_unaligned (h : Placing pf s k here first) (hc : s.memCache[k]? = some c) (ha : a.toNat = here % 2 ^ 32)
    (hb : ¬ (pf = .debug ∧ (here + c.size.toNat < 4 ∨ 2 ^ 32 ≤ here + c.size.toNat))) (hz : c.size.toNat ≠ 0)
    (h4 : c.size.toNat % 4 ≠ 0) : Lrvm.map pf s a k = some (.error .unalignedBusSize, s) := by
  rw [map_decide hc ha hb]
  unfold mapDecide
  rw [if_neg (not_not_intro (h.addr ha)), if_neg (size_ne hz), if_pos (fun hh => h4 (mod4_nat.mp hh))]

theorem Placing.mappable (h : Placing pf s k here first) (hc : s.memCache[k]? = some c) (ha : a.toNat = here % 2 ^ 32)
    (hb : ¬ (pf = .debug ∧ (here + c.size.toNat < 4 ∨ 2 ^ 32 ≤ here + c.size.toNat))) (hz : c.size.toNat ≠ 0)
    (h4 : c.size.toNat % 4 = 0) (hf : here + c.size.toNat ≤ 2 ^ 32) : Mappable pf s a k c := by
  rw [Nat.mod_eq_of_lt (by omega)] at ha
  refine ⟨hc, by omega, h4, ?_, ?_, ?_, ?_⟩
  · rw [ha]; exact h.aligned
  · rw [ha]
    cases pf with
    | release => exact hf
    | debug =>
      show _ ≤ 2 ^ 32 - 1
      have : here + c.size.toNat < 2 ^ 32 := Nat.lt_of_not_le fun h => hb ⟨rfl, .inr h⟩
      omega
  · intro m hm he; have := (h.below m hm).1; omega
  · intro m hm x ⟨h1, h2⟩
    have := (h.below m hm).2
    unfold covers at h1 h2
    simp only [rangeAt] at h1
    omega

theorem map_overlap (h : Placing pf s k here first) (hc : s.memCache[k]? = some c) (ha : a.toNat = here % 2 ^ 32)
    (hb : ¬ (pf = .debug ∧ (here + c.size.toNat < 4 ∨ 2 ^ 32 ≤ here + c.size.toNat))) (hz : c.size.toNat ≠ 0)
    (h4 : c.size.toNat % 4 = 0) (hf : here = 2 ^ 32) :
    ∃ m, Lrvm.map pf s a k = some (.error (.addressOverlaps m), s) ∧ first = some m.debugText := by
  have hp : pf = .release := by
    cases pf with
    | release => rfl
    | debug => have := h.dbg rfl; omega
  subst hp
  subst hf
  rw [Nat.mod_self] at ha
  have ha0 : a = 0 := BitVec.eq_of_toNat_eq ha
  subst ha0
  obtain ⟨hm, h0, _⟩ | ⟨m, ms, hm, hm0, hf, _⟩ := h.head
  · exact absurd h0 (by decide)
  refine ⟨m, ?_, hf⟩
  have hlt := c.size.isLt
  have hstop := endOf_nat 0 c.size
  rw [show (0 : Word).toNat = 0 from rfl, Nat.zero_add, Nat.mod_eq_of_lt hlt] at hstop
  have hstop' : (0 + c.size - 4).toNat = c.size.toNat - 4 := by omega
  have hr := h.table.ranges m (by rw [hm]; simp)
  rw [map_decide hc (here := 0) rfl (by rintro ⟨hh, _⟩; cases hh)]
  unfold mapDecide
  rw [if_neg (not_not_intro (by decide)), if_neg (size_ne hz), if_neg (not_not_intro (mod4_nat.mpr h4)),
    if_neg (not_not_intro (mod4_nat.mpr (show (0 + c.size - 4).toNat % 4 = 0 by omega)))]
  show (if _ ∨ _ then _ else _) = _
  rw [if_neg]
  · rw [sub_ok (a := 0 + c.size - 4) (b := 0) (Nat.zero_le _)]
    dsimp only
    rw [if_neg, if_neg, findOverlap_eq h.table.ranges, hm, List.find?_cons, decide_eq_true]
    · have := hr.nonempty
      rw [hm0]
      show 0 ≤ _ ∧ 0 < 0 + _
      exact ⟨Nat.zero_le _, by omega⟩
    · simp only [List.any_eq_true, beq_iff_eq, not_exists, not_and]
      intro x hx he
      have := (h.below x hx).1; omega
    · rw [bv_lt_nat, BitVec.toNat_sub_of_le (by rw [BitVec.le_def]; exact Nat.zero_le _), hstop']
      show ¬ _ < _ - 0
      omega
  · rw [bv_lt_nat]
    rintro (hz' | hz')
    · have h1 : (0 : Word).toNat = (0 + c.size - 4 + 4).toNat := congrArg _ hz'
      rw [BitVec.toNat_add, hstop'] at h1
      change 0 = (c.size.toNat - 4 + 4) % 2 ^ 32 at h1
      omega
    · exact absurd hz' (Nat.not_lt_zero _)

theorem map_neg (h : Placing pf s k here first) (hc : s.memCache[k]? = some c) (ha : a.toNat = here % 2 ^ 32)
    (hb : ¬ (pf = .debug ∧ (here + c.size.toNat < 4 ∨ 2 ^ 32 ≤ here + c.size.toNat))) (hz : c.size.toNat ≠ 0)
    (h4 : c.size.toNat % 4 = 0) (hf : ¬ here + c.size.toNat ≤ 2 ^ 32) (hh : here ≠ 2 ^ 32) :
    Lrvm.map pf s a k = some (.error .nullOrNegAddressRange, s) := by
  have hp : pf = .release := by
    cases pf with
    | release => rfl
    | debug => exact (hb ⟨rfl, .inr (by omega)⟩).elim
  subst hp
  have hle := h.le
  have hal := h.aligned
  have hlt := c.size.isLt
  rw [Nat.mod_eq_of_lt (by omega)] at ha
  have hstop := endOf_nat a c.size
  rw [ha] at hstop
  have hstop' : (a + c.size - 4).toNat = here + c.size.toNat - 4 - 2 ^ 32 := by omega
  rw [map_decide hc (here := here) (by rw [ha, Nat.mod_eq_of_lt (by omega)]) hb]
  unfold mapDecide
  rw [if_neg (not_not_intro (mod4_nat.mpr (by omega))), if_neg (size_ne hz), if_neg (not_not_intro (mod4_nat.mpr h4)),
    if_neg (not_not_intro (mod4_nat.mpr (show (a + c.size - 4).toNat % 4 = 0 by omega)))]
  show (if _ ∨ _ then _ else _) = _
  rw [if_pos (.inr (by rw [bv_lt_nat]; omega))]

/-! ### All components -/

/-- The accumulators after a component. -/
theorem contigStep_error {acc : ContigAcc} {e : MappingError} (hc : s.memCache[k]? = some c)
    (h : Lrvm.map pf s acc.lastAddr k = some (.error e, s)) :
    contigStep pf acc s k = some ({ acc with
      failed := acc.failed ++ [(k, e)]
      auxMapping := acc.auxMapping ++ [⟨k, c.hwId, c.name, .error e⟩] }, s) := by
  unfold contigStep
  rw [h]
  simp only [Option.bind_eq_bind, Option.bind_some, hc]

theorem lines_cons {L : List AuxMappingStatus} {x : AuxMappingStatus} {c : AuxCache} {f : Fate} {k : Nat}
    {rest : List (AuxCache × Fate)} (h : componentLine x = line k c.name c.hwId.toNat f) :
    (L ++ [x]).map componentLine ++ (rest.mapIdx fun i cf => line (k + 1 + i) cf.1.name cf.1.hwId.toNat cf.2) =
      L.map componentLine ++ (((c, f) :: rest).mapIdx fun i cf => line (k + i) cf.1.name cf.1.hwId.toNat cf.2) := by
  have e : (fun i (cf : AuxCache × Fate) => line (k + 1 + i) cf.1.name cf.1.hwId.toNat cf.2) =
      fun i cf => line (k + (i + 1)) cf.1.name cf.1.hwId.toNat cf.2 := by
    funext i cf
    rw [Nat.add_assoc k 1 i, Nat.add_comm 1 i]
  rw [List.map_append, List.append_assoc, List.mapIdx_cons, e]
  refine congrArg (L.map componentLine ++ ·) ?_
  rw [List.map_cons, List.map_nil, h]
  rfl

/-- What the loop leaves behind. -/
structure Reported (s s' : Machine D) (k : Nat) (cs : List AuxCache) (fs : List Fate) (acc acc' : ContigAcc) : Prop where
  lines : acc'.auxMapping.map componentLine = acc.auxMapping.map componentLine ++
    (cs.zip fs).mapIdx fun i cf => line (k + i) cf.1.name cf.1.hwId.toNat cf.2
  count : fs.length = cs.length
  failed : acc'.failed.length = acc.failed.length + fs.countP Fate.isRefused
  mapped : ∀ m ∈ s.mappings, m ∈ s'.mappings
  placed : ∀ i first last, fs[i]? = some (.placed first last) → ∃ m ∈ s'.mappings, m.auxId = k + i ∧
    m.addr.toNat = first ∧ m.addr.toNat + m.size.toNat = last + 4

theorem Reported.refuse {s s' : Machine D} {k : Nat} {cs : List AuxCache} {c : AuxCache} {fs : List Fate}
    {acc acc' : ContigAcc} {e : MappingError}
    (h : Reported s s' (k + 1) cs fs { acc with
      failed := acc.failed ++ [(k, e)]
      auxMapping := acc.auxMapping ++ [⟨k, c.hwId, c.name, .error e⟩] } acc') :
    Reported s s' k (c :: cs) (.refused e.debugText :: fs) acc acc' where
  lines := by
    rw [h.lines, List.zip_cons_cons]
    exact lines_cons (componentLine_text _)
  count := by rw [List.length_cons, List.length_cons, h.count]
  failed := by
    rw [h.failed, List.countP_cons_of_pos rfl]
    simp only [List.length_append, List.length_singleton]
    omega
  mapped := h.mapped
  placed := by
    intro i first last hi
    cases i with
    | zero => cases hi
    | succ i =>
      obtain ⟨m, h1, h2, h3⟩ := h.placed i first last hi
      exact ⟨m, h1, by rw [h2]; omega, h3⟩

theorem contigLoop_fates (cs : List AuxCache) : ∀ (k here : Nat) (first : Option Text) (acc : ContigAcc) (s : Machine D),
    (∀ i c, cs[i]? = some c → s.memCache[k + i]? = some c) → Placing pf s k here first →
    acc.lastAddr.toNat = here % 2 ^ 32 →
    match fates pf k here first (cs.map fun c => (c.hwId.toNat, c.size.toNat)) with
    | none => contigLoop pf acc s (List.range' k cs.length) = none
    | some fs => ∃ acc' s', contigLoop pf acc s (List.range' k cs.length) = some (acc', s') ∧
        Reported s s' k cs fs acc acc' := by
  induction cs with
  | nil =>
    intro k here first acc s _ _ _
    exact ⟨acc, s, rfl, by simp, rfl, rfl, fun _ h => h, by intro i a b h; simp at h⟩
  | cons c cs ih =>
    intro k here first acc s hc hp ha
    have hck : s.memCache[k]? = some c := hc 0 c rfl
    have hcs : ∀ i c', cs[i]? = some c' → s.memCache[k + 1 + i]? = some c' := by
      intro i c' hi
      rw [show k + 1 + i = k + (i + 1) by omega]
      exact hc (i + 1) c' hi
    rw [List.map_cons, List.length_cons, List.range'_succ]
    unfold fates contigLoop
    have refuse : ∀ {e : MappingError}, Lrvm.map pf s acc.lastAddr k = some (.error e, s) →
        match (fates pf (k + 1) here first (cs.map fun c => (c.hwId.toNat, c.size.toNat))).map
            (.refused e.debugText :: ·) with
        | none => (do
            let (acc', s') ← contigStep pf acc s k
            contigLoop pf acc' s' (List.range' (k + 1) cs.length)) = none
        | some fs => ∃ acc' s', (do
            let (acc', s') ← contigStep pf acc s k
            contigLoop pf acc' s' (List.range' (k + 1) cs.length)) = some (acc', s') ∧
            Reported s s' k (c :: cs) fs acc acc' := by
      intro e he
      have hi := ih (k + 1) here first { acc with
        failed := acc.failed ++ [(k, e)]
        auxMapping := acc.auxMapping ++ [⟨k, c.hwId, c.name, .error e⟩] } s hcs hp.skip ha
      rw [contigStep_error hck he]
      cases hf : fates pf (k + 1) here first (cs.map fun c => (c.hwId.toNat, c.size.toNat)) with
      | none =>
        rw [hf] at hi
        exact hi
      | some fs =>
        rw [hf] at hi
        obtain ⟨acc', s', h1, h2⟩ := hi
        exact ⟨acc', s', h1, h2.refuse⟩
    by_cases hb : pf = .debug ∧ (here + c.size.toNat < 4 ∨ 2 ^ 32 ≤ here + c.size.toNat)
    · rw [if_pos hb]
      have := map_none hp hck ha hb
      dsimp only
      unfold contigStep
      rw [this]
      rfl
    rw [if_neg hb]
    by_cases hz : c.size.toNat = 0
    · rw [if_pos hz]
      exact refuse (map_null hp hck ha hb hz)
    rw [if_neg hz]
    by_cases h4 : c.size.toNat % 4 ≠ 0
    · rw [if_pos h4]
      exact refuse (map_unaligned hp hck ha hb hz h4)
    rw [if_neg h4]
    have h4 : c.size.toNat % 4 = 0 := Decidable.not_not.mp h4
    by_cases hf : here + c.size.toNat ≤ 2 ^ 32
    · rw [if_pos hf]
      have hm := hp.mappable hck ha hb hz h4 hf
      have hmap := map_ok hp.table.ranges hm
      have hmt := tableOk_snoc hp.table hm
      have hah : acc.lastAddr.toNat = here := by rw [ha, Nat.mod_eq_of_lt (by omega)]
      have hstop := endOf_nat acc.lastAddr c.size
      have hal := hp.aligned
      have hstop' : (acc.lastAddr + c.size - 4).toNat = here + c.size.toNat - 4 := by omega
      have hadd : pf.add (acc.lastAddr + c.size - 4) 4 = some (acc.lastAddr + c.size - 4 + 4) := by
        cases pf with
        | release => rfl
        | debug =>
          have : here + c.size.toNat < 2 ^ 32 := Nat.lt_of_not_le fun h => hb ⟨rfl, .inr h⟩
          unfold Profile.add
          simp only
          rw [if_pos]
          rw [hstop']
          show _ + 4 < 2 ^ 32
          omega
      have hlast : (acc.lastAddr + c.size - 4 + 4).toNat = (here + c.size.toNat) % 2 ^ 32 := by
        rw [BitVec.toNat_add, hstop']
        show (_ + 4) % _ = _
        congr 1; omega
      have hstep : contigStep pf acc s k = some ({ acc with
            maxAddr := if acc.maxAddr < acc.lastAddr + c.size - 4 then acc.lastAddr + c.size - 4 else acc.maxAddr
            lastAddr := acc.lastAddr + c.size - 4 + 4
            auxMapping := acc.auxMapping ++ [⟨k, c.hwId, c.name, .ok ⟨acc.lastAddr, acc.lastAddr + c.size - 4⟩⟩] },
          { s with mappings := s.mappings ++ [rangeAt k c.hwId acc.lastAddr c.size] }) := by
        unfold contigStep
        rw [hmap]
        simp only [Option.bind_eq_bind, Option.bind_some, hadd, hck]
      have hi := ih (k + 1) (here + c.size.toNat)
        (some (first.getD ("Mapping { aux_id: ".toList ++ Nat.toDigits 10 k ++ ", aux_hw_id: ".toList ++
          Nat.toDigits 10 c.hwId.toNat ++ ", addr: 0, size: ".toList ++ Nat.toDigits 10 c.size.toNat ++ " }".toList)))
        { acc with
          maxAddr := if acc.maxAddr < acc.lastAddr + c.size - 4 then acc.lastAddr + c.size - 4 else acc.maxAddr
          lastAddr := acc.lastAddr + c.size - 4 + 4
          auxMapping := acc.auxMapping ++ [⟨k, c.hwId, c.name, .ok ⟨acc.lastAddr, acc.lastAddr + c.size - 4⟩⟩] }
        { s with mappings := s.mappings ++ [rangeAt k c.hwId acc.lastAddr c.size] } hcs
        { aligned := by omega
          le := hf
          dbg := fun hd => Nat.lt_of_not_le fun h => hb ⟨hd, .inr h⟩
          table := hmt
          below := by
            intro m hmm
            rcases List.mem_append.1 hmm with hmm | hmm
            · have := hp.below m hmm; omega
            · rw [List.mem_singleton] at hmm
              subst hmm
              simp only [rangeAt]
              omega
          head := by
            right
            rcases hp.head with ⟨h1, h2, h3⟩ | ⟨m, ms, h1, h2, h3, h5⟩
            · refine ⟨rangeAt k c.hwId acc.lastAddr c.size, [], by rw [h1]; rfl, ?_, ?_, by omega⟩
              · exact BitVec.eq_of_toNat_eq (by show acc.lastAddr.toNat = 0; omega)
              · rw [h3]
                show some _ = some (Mapping.debugText _)
                unfold Mapping.debugText
                simp only [rangeAt, fmtDec_ten]
                rw [hah, h2, Option.getD_none]
                simp only [Nat.toDigits_zero]
                simp
            · exact ⟨m, ms ++ _, by rw [h1]; rfl, h2, by rw [h3]; rfl, by omega⟩ }
        hlast
      rw [hstep]
      generalize fates pf (k + 1) _ _ (cs.map fun c => (c.hwId.toNat, c.size.toNat)) = F at hi ⊢
      cases F with
      | none => exact hi
      | some fs =>
        obtain ⟨acc', s', h1, h2⟩ := hi
        refine ⟨acc', s', h1, ?_, by rw [List.length_cons, List.length_cons, h2.count], ?_, ?_, ?_⟩
        · rw [h2.lines, List.zip_cons_cons]
          refine lines_cons ?_
          rw [componentLine_text]
          simp only [fateOf]
          rw [hah, hstop']
        · rw [h2.failed, List.countP_cons_of_neg (by simp [Fate.isRefused])]
        · exact fun m hmm => h2.mapped m (List.mem_append_left _ hmm)
        · intro i fa la hi
          cases i with
          | zero =>
            cases hi
            refine ⟨_, h2.mapped _ (List.mem_append_right _ (List.mem_singleton_self _)), rfl, hah, ?_⟩
            show acc.lastAddr.toNat + c.size.toNat = _
            omega
          | succ i =>
            obtain ⟨m, h3, h5, h6⟩ := h2.placed i fa la hi
            exact ⟨m, h3, by rw [h5]; omega, h6⟩
    · rw [if_neg hf]
      by_cases hh : here = 2 ^ 32
      · rw [if_pos hh]
        obtain ⟨m, h1, h2⟩ := map_overlap hp hck ha hb hz h4 hh
        have := refuse h1
        rw [h2] at this ⊢
        exact this
      · rw [if_neg hh]
        exact refuse (map_neg hp hck ha hb hz h4 hf hh)

/-- **C100**. `prepare_vm` on components with given hardware identifiers and sizes. If no address computation overflows — never
in release builds — it prints one line per component, in order, with the component's number, its name (cut to 32 bytes), a tick
with the addresses of its first and last words or a cross with the reason, and its hardware identifier. If all components
were placed it goes on to the reset of the board, and in the machine every component is mapped where its line says; otherwise
it panics with the number of components that were not. -/
theorem C100_report_partial {ds : List D} {infos : List (Nat × Nat)} (hn : ds.length < 2 ^ 32) (hlen : infos.length = ds.length)
    (hi : ∀ (k : Nat) d hw size, ds[k]? = some d → infos[k]? = some (hw, size) → Is pf d hw size) :
    match fates pf 0 0 none infos with
    | none => pf = .debug ∧ prepareReport pf ds = none ∧ prepareVm pf ds = none
    | some fs => fs.length = ds.length ∧ ∃ r, prepareReport pf ds = some r ∧ r.lines.length = ds.length ∧
        (∀ (k : Nat) d hw size f, ds[k]? = some d → infos[k]? = some (hw, size) → fs[k]? = some f →
          ∃ name, Shown (Bus.name d) name ∧ r.lines[k]? = some (line k name hw f)) ∧
        (fs.countP Fate.isRefused = 0 → r.result = .ok (prepareVm pf ds)) ∧
        (fs.countP Fate.isRefused ≠ 0 → r.result = .error (message (fs.countP Fate.isRefused)) ∧ prepareVm pf ds = none) ∧
        ∀ s, prepareVm pf ds = some s → ∀ (k first last : Nat), fs[k]? = some (.placed first last) →
          ∃ m ∈ s.mappings, m.auxId = k ∧ m.addr.toNat = first ∧ m.addr.toNat + m.size.toNat = last + 4 := by
  have hmd : ∀ d ∈ ds, ∃ md, Bus.metadata pf d = some md := by
    intro d hd
    obtain ⟨k, hk, hk'⟩ := List.mem_iff_getElem.1 hd
    obtain ⟨md, h, _⟩ := hi k d _ _ (by rw [List.getElem?_eq_getElem hk, hk'])
      (List.getElem?_eq_getElem (show k < infos.length by omega))
    exact ⟨md, h⟩
  obtain ⟨cs, hcs⟩ := createCaches_ok (pf := pf) (k := 0) (ds := ds) (by omega) hmd
  obtain ⟨hcl, hcg⟩ := createCaches_get hcs
  have hinfo : infos = cs.map fun c => (c.hwId.toNat, c.size.toNat) := by
    apply List.ext_getElem?
    intro k
    rw [List.getElem?_map]
    by_cases hk : k < ds.length
    · obtain ⟨c, md, h1, h2, h3, h4, h5, h6, h7⟩ := hcg k ds[k] (List.getElem?_eq_getElem hk)
      have hki : k < infos.length := by omega
      obtain ⟨md', h8, h9, h10⟩ := hi k ds[k] infos[k].1 infos[k].2 (List.getElem?_eq_getElem hk)
        (List.getElem?_eq_getElem hki)
      rw [h2] at h8; injection h8 with h8; subst h8
      rw [List.getElem?_eq_getElem hki, h1, Option.map_some, h7, h9, h4, h10]
    · rw [List.getElem?_eq_none (by omega), List.getElem?_eq_none (by omega)]; rfl
  let s0 : Machine D := ⟨{ Regs.zero with smt := 1 }, ds, cs, cs, [], 0, true, false⟩
  have hb : newBoard pf ds = some s0 := by
    have hle : ds.length ≤ 4294967295 := by omega
    simp only [newBoard, hcs, assert, hle, decide_true, if_true, Option.bind_eq_bind, Option.bind_some, Option.pure_def]
    rfl
  have hmain := contigLoop_fates (pf := pf) cs 0 0 none ⟨[], [], 0, 0⟩ s0
    (by intro i c hc; rw [Nat.zero_add]; exact hc)
    { aligned := rfl, le := by decide, dbg := fun _ => by decide, table := ⟨by simp [s0], by simp [s0], by simp [s0]⟩,
      below := by simp [s0], head := .inl ⟨rfl, rfl, rfl⟩ } rfl
  rw [← hinfo, hcl] at hmain
  have hrep : ∀ x, contigLoop pf ⟨[], [], 0, 0⟩ s0 (List.range' 0 ds.length) = x →
      mapContiguous pf s0 0 (List.range ds.length) = (x.map fun as =>
        ({ mapping := if as.1.failed.isEmpty then .ok ⟨0, as.1.maxAddr⟩ else .error as.1.failed,
           auxMapping := as.1.auxMapping }, as.2)) := by
    intro x hx
    unfold mapContiguous
    rw [List.range_eq_range', hx]
    cases x <;> rfl
  cases hfa : fates pf 0 0 none infos with
  | none =>
    rw [hfa] at hmain
    have h1 := hrep _ hmain
    refine ⟨?_, ?_, ?_⟩
    · cases pf with
      | debug => rfl
      | release =>
        exfalso
        have : ∀ (l : List (Nat × Nat)) k here first, fates .release k here first l ≠ none := by
          intro l
          induction l with
          | nil => intro k here first h; cases h
          | cons x l ih =>
            intro k here first
            obtain ⟨hw, n⟩ := x
            unfold fates
            rw [if_neg (fun h => by cases h.1)]
            repeat' split
            all_goals
              rw [Ne, Option.map_eq_none_iff]
              exact ih _ _ _
        exact this _ _ _ _ hfa
    · unfold prepareReport
      rw [hb]
      simp only [Option.bind_eq_bind, Option.bind_some, h1]
      rfl
    · unfold prepareVm
      rw [hb]
      simp only [Option.bind_eq_bind, Option.bind_some, h1]
      rfl
  | some fs =>
    rw [hfa] at hmain
    obtain ⟨acc, s1, hl, hr⟩ := hmain
    have h1 := hrep _ hl
    have hpr : prepareReport pf ds = some ⟨acc.auxMapping.map componentLine,
        match (if acc.failed.isEmpty then .ok ⟨0, acc.maxAddr⟩ else .error acc.failed :
          Except (List (Nat × MappingError)) MappingRange) with
        | .error failed => .error (failedText failed.length)
        | .ok _ => .ok (boardReset s1)⟩ := by
      unfold prepareReport
      rw [hb]
      simp only [Option.bind_eq_bind, Option.bind_some, h1, Option.map_some]
      rfl
    have hpv : prepareVm pf ds = if acc.failed.isEmpty then boardReset s1 else none := by
      unfold prepareVm
      rw [hb]
      simp only [Option.bind_eq_bind, Option.bind_some, h1, Option.map_some]
      cases acc.failed.isEmpty
      · rfl
      · rfl
    have hfl : acc.failed.length = fs.countP Fate.isRefused := by
      have := hr.failed; simpa using this
    have hemp : acc.failed.isEmpty = decide (fs.countP Fate.isRefused = 0) := by
      rw [← hfl]
      cases acc.failed <;> simp
    have hlines := hr.lines
    simp only [List.map_nil, List.nil_append, Nat.zero_add] at hlines
    refine ⟨by rw [hr.count, hcl], _, hpr, ?_, ?_, ?_, ?_, ?_⟩
    · show (acc.auxMapping.map componentLine).length = _
      rw [hlines, List.length_mapIdx, List.length_zip, hr.count, Nat.min_self, hcl]
    · intro k d hw size f hd hk hf
      obtain ⟨c, md, h2, h3, h4, h5, h6, h7, h8⟩ := hcg k d hd
      obtain ⟨md', h9, h10, _⟩ := hi k d hw size hd hk
      rw [h3] at h9; injection h9 with h9; subst h9
      refine ⟨c.name, by rw [h6]; exact C40_name_cut _, ?_⟩
      show (acc.auxMapping.map componentLine)[k]? = _
      rw [hlines, List.getElem?_mapIdx, (List.getElem?_zip_eq_some (z := (c, f))).mpr ⟨h2, hf⟩, Option.map_some, h8, h10]
    · intro h0
      rw [hpv]
      have : acc.failed.isEmpty = true := by rw [hemp, h0]; rfl
      simp only [this, if_true]
    · intro h0
      have : acc.failed.isEmpty = false := by rw [hemp]; exact decide_eq_false h0
      rw [hpv]
      simp only [this, Bool.false_eq_true, if_false]
      exact ⟨by rw [failedText_text, hfl], trivial⟩
    · intro s hs k fa la hk
      obtain ⟨m, hm, h2, h3⟩ := hr.placed k fa la hk
      refine ⟨m, ?_, by rw [h2, Nat.zero_add], h3⟩
      rw [hpv] at hs
      split at hs
      · unfold boardReset at hs
        simp only [Option.bind_eq_bind, Option.bind_eq_some_iff] at hs
        obtain ⟨ds', _, hs⟩ := hs
        injection hs with hs
        rw [← hs]
        exact hm
      · cases hs

/-- A component of a given size, for the examples. -/
structure Sized where
  size : Word

instance : Bus Sized where
  name _ := "Sized".toList
  metadata _ d := some #v[0, 0x11, d.size, 0, 0, 0, 0, 0]
  read d _ ex := some (d, 0, ex)
  write d _ _ ex := some (d, ex)
  reset d := some d

/-- **C100** is false in debug builds: a first component without memory, or two components that do not fit, make the address
computation overflow before any line is printed, where a release build reports the faulty component. -/
theorem C100_overflow_refuted :
    prepareReport .debug [Sized.mk 0] = none ∧
    (∃ r, prepareReport .release [Sized.mk 0] = some r ∧
      r.lines = ["=> Component 0000 'Sized                           ': ✗ NullBusSize (HW ID: 0x00 00 00 00 00 00 00 11)".toList] ∧
      r.result = .error "Failed to map 1 component!".toList) ∧
    prepareReport .debug [Sized.mk 0x80000000, Sized.mk 0x80000000] = none ∧
    ∃ r, prepareReport .release [Sized.mk 0x80000000, Sized.mk 0x80000000, Sized.mk 4] = some r ∧
      r.lines = [
        "=> Component 0000 'Sized                           ': ✓ 0x00000000 -> 0x7FFFFFFC (HW ID: 0x00 00 00 00 00 00 00 11)".toList,
        "=> Component 0001 'Sized                           ': ✓ 0x80000000 -> 0xFFFFFFFC (HW ID: 0x00 00 00 00 00 00 00 11)".toList,
        "=> Component 0002 'Sized                           ': ✗ AddressOverlaps(Mapping { aux_id: 0, aux_hw_id: 17, addr: 0, size: 2147483648 }) (HW ID: 0x00 00 00 00 00 00 00 11)".toList] ∧
      r.result = .error "Failed to map 1 component!".toList := by
  refine ⟨rfl, ⟨_, rfl, by decide +kernel, rfl⟩, rfl, ⟨_, rfl, by decide +kernel, rfl⟩⟩

/-- The hypotheses hold of concrete components; the second is refused and takes no room. -/
example : (∀ (k : Nat) d hw size, [Sized.mk 8, Sized.mk 6, Sized.mk 4][k]? = some d →
      [(0x11, 8), (0x11, 6), (0x11, 4)][k]? = some (hw, size) → Is .debug d hw size) ∧
    fates .debug 0 0 none [(0x11, 8), (0x11, 6), (0x11, 4)] =
      some [.placed 0 4, .refused "UnalignedBusSize".toList, .placed 8 8] := by
  refine ⟨?_, rfl⟩
  intro k d hw size hd hk
  match k with
  | 0 => cases hd; cases hk; exact ⟨_, rfl, rfl, rfl⟩
  | 1 => cases hd; cases hk; exact ⟨_, rfl, rfl, rfl⟩
  | 2 => cases hd; cases hk; exact ⟨_, rfl, rfl, rfl⟩
  | k + 3 => cases hk

end Lrvm
