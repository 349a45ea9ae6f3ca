import Verif.Props.Data
import Verif.Props.Memory
import Verif.Lemmas.Devices
import Verif.Spec.Hw

/-!
# Hardware information, component names and RESET: C39, C40, C41
-/

namespace Lrvm

open Spec

variable {D : Type} [Bus D] {pf : Profile}

/-! ### Names -/

theorem utf8Bytes_eq (s : List Char) : utf8Bytes s = (utf8 s).map BitVec.toNat := by
  unfold utf8Bytes utf8
  rw [List.map_map]; rfl

theorem utf8Bytes_length (s : List Char) : (utf8Bytes s).length = (utf8 s).length := by
  rw [utf8Bytes_eq, List.length_map]

theorem utf8Bytes_append (s t : List Char) : utf8Bytes (s ++ t) = utf8Bytes s ++ utf8Bytes t := by
  simp [utf8Bytes]

theorem utf8Bytes_prefix {s t : List Char} (h : s <+: t) : (utf8Bytes s).length ≤ (utf8Bytes t).length := by
  obtain ⟨u, rfl⟩ := h
  rw [utf8Bytes_append, List.length_append]; omega

theorem truncRev_shown (r : List Char) : Shown r.reverse (truncRev r).reverse := by
  induction r with
  | nil =>
    refine ⟨List.prefix_rfl, by decide, fun p h _ => h⟩
  | cons c cs ih =>
    unfold truncRev
    split
    · next h =>
      rw [← utf8Bytes_length] at h
      refine ⟨ih.isPrefix.trans (by simp), ih.fits, fun p hp hl => ih.longest p ?_ hl⟩
      rw [List.reverse_cons] at hp h
      rcases List.prefix_concat_iff.mp hp with rfl | hp
      · omega
      · exact hp
    · next h =>
      rw [← utf8Bytes_length] at h
      exact ⟨List.prefix_rfl, by omega, fun p hp _ => hp⟩

/-- **C40**. The name cached (and reported) for a component is the longest prefix of its name made of whole
characters that fits in 32 bytes. -/
theorem C40_name_cut (name : List Char) : Shown name (truncName name) := by
  have := truncRev_shown name.reverse
  rwa [List.reverse_reverse] at this

theorem Spec.Shown.unique {full a b : List Char} (ha : Shown full a) (hb : Shown full b) : a = b := by
  have h1 := ha.longest b hb.isPrefix hb.fits
  have h2 := hb.longest a ha.isPrefix ha.fits
  exact h2.eq_of_length (Nat.le_antisymm h2.length_le h1.length_le)

/-- **C40**. On a new board, and along any history of calls, the name remembered for component `id` is the cut
name. -/
theorem C40_board_name {devs : List D} {s0 : Machine D} (hb : newBoard pf devs = some s0) {id : Nat} {d : D}
    (hd : devs[id]? = some d) :
    ∃ c, s0.hwbCache[id]? = some c ∧ Shown (Bus.name d) c.name := by
  obtain ⟨hc, hh, _⟩ := newBoard_inv hb
  obtain ⟨_, hg⟩ := createCaches_get hc
  obtain ⟨c, md, h1, _, _, _, h5, _⟩ := hg id d hd
  exact ⟨c, by rw [hh]; exact h1, by rw [h5]; exact C40_name_cut _⟩

/-- A short name is kept whole; a name of 3-byte characters is cut at 30 bytes, not inside a character. -/
example : truncName "RAM".toList = "RAM".toList ∧
    truncName (List.replicate 20 '€') = List.replicate 10 '€' ∧
    (utf8Bytes (List.replicate 10 '€')).length = 30 := by decide +kernel

/-! ### The board's description along a history -/

theorem contigLoop_keeps {s s' : Machine D} {acc acc' : ContigAcc} {ids : List Nat}
    (h : contigLoop pf acc s ids = some (acc', s')) :
    s'.devs.length = s.devs.length ∧ s'.hwbCache = s.hwbCache ∧ s'.memCache = s.memCache := by
  induction ids generalizing acc s with
  | nil => simp only [contigLoop, Option.some.injEq, Prod.mk.injEq] at h; rw [← h.2]; exact ⟨rfl, rfl, rfl⟩
  | cons i is ih =>
    simp only [contigLoop, contigStep, Option.bind_eq_bind, Option.bind_eq_some_iff] at h
    obtain ⟨⟨a1, s1⟩, ⟨⟨r, s2⟩, hm, a2, _, h2⟩, h3⟩ := h
    obtain ⟨e1, e2, e3⟩ := ih h3
    have e4 : s1 = s2 := by
      dsimp only at h2
      split at h2
      · cases h2
      · injection h2 with h2; injection h2 with _ h2; exact h2.symm
    subst e4
    have : s1.devs.length = s.devs.length ∧ s1.hwbCache = s.hwbCache ∧ s1.memCache = s.memCache := by
      rcases internalMap_inv hm with ⟨_, rfl⟩ | ⟨_, _, _, _, _, rfl⟩ <;> exact ⟨rfl, rfl, rfl⟩
    exact ⟨e1.trans this.1, e2.trans this.2.1, e3.trans this.2.2⟩

theorem hostStep_keeps {s s' : Machine D} {op : HostOp} (h : hostStep pf s op = some s') :
    s'.devs.length = s.devs.length ∧ s'.hwbCache = s.hwbCache ∧ s'.memCache = s.memCache := by
  cases op with
  | next =>
    have hk := C38_step_keeps_hardware h
    exact ⟨hk.1, hk.2.2.1, hk.2.2.2⟩
  | cpuReset => injection h with h; rw [← h]; exact ⟨rfl, rfl, rfl⟩
  | reset =>
    obtain ⟨_, _, _, _, h1, h2, h3⟩ := C05_reset h
    have := congrArg List.length h3
    simp only [List.length_map] at this
    exact ⟨this.symm, h1, h2⟩
  | map a i =>
    simp only [hostStep, Option.map_eq_some_iff] at h
    obtain ⟨⟨r, v⟩, hm, rfl⟩ := h
    rcases internalMap_inv hm with ⟨_, rfl⟩ | ⟨_, _, _, _, _, rfl⟩ <;> exact ⟨rfl, rfl, rfl⟩
  | mapAbs a e i =>
    simp only [hostStep, Option.map_eq_some_iff] at h
    obtain ⟨⟨r, v⟩, hm, rfl⟩ := h
    rcases internalMap_inv hm with ⟨_, rfl⟩ | ⟨_, _, _, _, _, rfl⟩ <;> exact ⟨rfl, rfl, rfl⟩
  | mapContiguous a is =>
    simp only [hostStep, Option.map_eq_some_iff, mapContiguous, Option.bind_eq_bind, Option.bind_eq_some_iff] at h
    obtain ⟨⟨r, v⟩, ⟨⟨a1, s1⟩, hl, hm⟩, rfl⟩ := h
    injection hm with hm; injection hm with _ hm; subst hm
    exact contigLoop_keeps hl
  | memRead a ex =>
    simp only [hostStep, Option.map_eq_some_iff] at h
    obtain ⟨⟨w, e, t⟩, hm, rfl⟩ := h
    have hf := memRead_frame hm
    exact ⟨memRead_length hm, by rw [hf], by rw [hf]⟩
  | memWrite a w ex =>
    simp only [hostStep, Option.map_eq_some_iff] at h
    obtain ⟨⟨e, t⟩, hm, rfl⟩ := h
    have hf := memWrite_frame hm
    exact ⟨memWrite_length hm, by rw [hf], by rw [hf]⟩
  | setRegs f => injection h with h; rw [← h]; exact ⟨rfl, rfl, rfl⟩

/-- The caches and the number of components never change. -/
theorem hostRun_keeps {s s' : Machine D} {ops : List HostOp} (h : hostRun pf ops s = some s') :
    s'.devs.length = s.devs.length ∧ s'.hwbCache = s.hwbCache ∧ s'.memCache = s.memCache := by
  refine hostRun_inv (P := fun t => t.devs.length = s.devs.length ∧ t.hwbCache = s.hwbCache ∧
    t.memCache = s.memCache) h ⟨rfl, rfl, rfl⟩ ?_
  rintro op _ t u ⟨h1, h2, h3⟩ hst
  obtain ⟨e1, e2, e3⟩ := hostStep_keeps hst
  exact ⟨e1.trans h1, e2.trans h2, e3.trans h3⟩

/-! ## C39 -/

/-- What `getHwInfo` answers, for a machine state. -/
def outAnswer (s : Machine D) : HwAnswer → Out (Machine D) Word
  | .value n => .ok (BitVec.ofNat 32 n) s
  | .fault c d => .ex (s.exception (BitVec.ofNat 8 c) (BitVec.ofNat 16 d))

theorem ofNat_toNat32 (w : Word) : BitVec.ofNat 32 w.toNat = w := by simp

theorem byteAt_utf8 (n : List Char) (i : Nat) : byteAt (utf8Bytes n) i = ((utf8 n).getD i 0).toNat := by
  rw [byteAt, utf8Bytes_eq, List.getElem?_map, List.getD_eq_getElem?_getD]
  cases (utf8 n)[i]? <;> rfl

theorem getHwInfo_eq {s : Machine D} {cache : AuxCache} {c : Component} {id : Nat} {code : Word}
    (hc : s.hwbCache[id]? = some cache) (hn : cache.name = c.name) (hm : cache.metadata = c.metadata)
    (hr : match s.getMapping id with
      | none => c.range = none
      | some m => c.range = some (m.addr.toNat, m.addr.toNat + m.size.toNat - 1) ∧ RangeOk pf m) :
    getHwInfo pf code id s = outAnswer s (componentAnswer c id code.toNat) := by
  unfold getHwInfo componentAnswer
  rw [hc]
  dsimp only
  rw [hn, hm, show code.setWidth 16 = BitVec.ofNat 16 (code.toNat % 2 ^ 16) by
    apply BitVec.eq_of_toNat_eq; simp]
  generalize code.toNat = n
  split <;> simp only [outAnswer, ofNat_toNat32]
  · rw [utf8Bytes_length]
  · cases hg : s.getMapping id with
    | none => rw [hg] at hr; simp only at hr; rw [hr]; rfl
    | some m => rw [hg] at hr; rw [hr.1]; rfl
  · cases hg : s.getMapping id with
    | none =>
      rw [hg] at hr; simp only at hr; rw [hr]
      show Out.ex _ = Out.ex _
      congr 2
      apply BitVec.eq_of_toNat_eq; simp
    | some m => rw [hg] at hr; rw [hr.1]; simp only [ofNat_toNat32]
  · cases hg : s.getMapping id with
    | none =>
      rw [hg] at hr; simp only at hr; rw [hr]
      show Out.ex _ = Out.ex _
      congr 2
      apply BitVec.eq_of_toNat_eq; simp
    | some m =>
      rw [hg] at hr; rw [hr.1]
      obtain ⟨e, he, hen⟩ := endAddr_eq hr.2.nonempty hr.2.fits
      simp only [he]
      rw [← hen, ofNat_toNat32]; rfl
  · split
    · simp only [byteAt_utf8]
      congr 1
      apply BitVec.eq_of_toNat_eq
      unfold nameWord
      rw [toNat_be, Nat.mul_comm (n - 17) 4]
      have h1 := ((utf8 c.name).getD (4 * (n - 17)) 0).isLt
      have h2 := ((utf8 c.name).getD (4 * (n - 17) + 1) 0).isLt
      have h3 := ((utf8 c.name).getD (4 * (n - 17) + 2) 0).isLt
      have h4 := ((utf8 c.name).getD (4 * (n - 17) + 3) 0).isLt
      rw [BitVec.toNat_ofNat]
      omega
    · rfl

theorem describes_range {maps : List Mapping} (ht : TableOk pf maps) {c : Component} {i : Nat}
    (h : ∀ a b, c.range = some (a, b) ↔
      ∃ m ∈ maps, m.auxId = i ∧ a = m.addr.toNat ∧ b = m.addr.toNat + m.size.toNat - 1) :
    match maps.find? (fun m => m.auxId == i) with
      | none => c.range = none
      | some m => c.range = some (m.addr.toNat, m.addr.toNat + m.size.toNat - 1) ∧ RangeOk pf m := by
  cases hf : maps.find? (fun m => m.auxId == i) with
  | none =>
    cases hc : c.range with
    | none => rfl
    | some ab =>
      obtain ⟨m, hm, hi, _⟩ := (h ab.1 ab.2).mp hc
      rw [List.find?_eq_none] at hf
      exact absurd (by simpa using hi) (hf m hm)
  | some m =>
    have hm := List.mem_of_find?_eq_some hf
    have hi := List.find?_some hf
    exact ⟨(h _ _).mpr ⟨m, hm, by simpa using hi, rfl, rfl⟩, ht.ranges m hm⟩

/-- HWD on a machine whose bridge knows the components `devs`. -/
theorem hwd_cached {devs : List D} {s : Machine D} {cs : List Component}
    {devs1 : List D} {r0 r1 r2 : Bool} {p0 p1 p2 : U8} {id code : Word}
    (hc : createCaches pf 0 devs = some s.hwbCache) (hdl : s.devs.length = devs.length) (ht : TableOk pf s.mappings)
    (hcs : Describes pf devs s.mappings cs)
    (hf : Fetches pf s (instrWord 0x1C r0 r1 r2 p0 p1 p2) devs1)
    (hid : Val1 s.regs r1 p1 id) (hcode : Val1 s.regs r2 p2 code)
    (hw : mayWrite (supervisor s.regs) p0.toNat = true) :
    Steps pf s (answered s.regs p0.toNat (hwAnswer cs id.toNat code.toNat)) devs1 := by
  obtain ⟨hl, hg⟩ := createCaches_get hc
  have hlen : (atExec s devs1).devs.length = cs.length := by
    have h1 : devs1.length = s.devs.length := by
      rw [fetches_iff] at hf
      exact accRead_length.1 _ hf.2
    show devs1.length = _
    rw [h1, hdl, hcs.1]
  have hcache : (atExec s devs1).hwbCache = s.hwbCache := rfl
  by_cases h00 : id.toNat = 0 ∧ code.toNat = 0
  · rw [hwAnswer, if_pos h00]
    have h0' : id = 0 ∧ code = 0 := ⟨BitVec.eq_of_toNat_eq h00.1, BitVec.eq_of_toNat_eq h00.2⟩
    have := steps_ok (cp := if p0 = 0x16#8 then true else false) (devs' := devs1)
      (r := setReg s.regs p0.toNat (BitVec.ofNat 32 cs.length)) hf (by
        show execHwd pf _ _ = _
        unfold execHwd
        rw [M.bind_ok (regOrLit1_val (s := atExec s devs1) hid), M.bind_ok (regOrLit1_val (s := atExec s devs1) hcode),
          if_pos h0', getsM_bind, hlen]
        exact writeReg_val (s := atExec s devs1) _ hw)
    rwa [assign_eq] at this
  · have h0' : ¬ (id = 0 ∧ code = 0) := by
      rintro ⟨rfl, rfl⟩; exact h00 ⟨rfl, rfl⟩
    rw [hwAnswer, if_neg h00]
    have hinfo : getHwInfo pf code id.toNat (atExec s devs1) = outAnswer (atExec s devs1)
        (match cs[id.toNat]? with
          | none => .fault 0x10 (id.toNat % 2 ^ 16)
          | some c => componentAnswer c id.toNat code.toNat) := by
      cases hci : cs[id.toNat]? with
      | none =>
        have hno : s.hwbCache[id.toNat]? = none := by
          rw [List.getElem?_eq_none_iff] at hci ⊢
          rw [hl, ← hcs.1]; exact hci
        unfold getHwInfo
        rw [hcache, hno]
        show Out.ex _ = Out.ex _
        congr 2
        apply BitVec.eq_of_toNat_eq; simp
      | some c =>
        have hlt : id.toNat < devs.length := by
          rw [← hcs.1]; exact (List.getElem?_eq_some_iff.mp hci).1
        have hdi : devs[id.toNat]? = some devs[id.toNat] := List.getElem?_eq_getElem hlt
        obtain ⟨hs1, hs2, hs3⟩ := hcs.2 _ _ c hdi hci
        obtain ⟨cache, md, g1, g2, g3, g4, g5, _⟩ := hg _ _ hdi
        refine getHwInfo_eq (cache := cache) ?_ ?_ ?_ ?_
        · rw [hcache]; exact g1
        · rw [g5]; exact (C40_name_cut _).unique hs1
        · rw [g3]; rw [g2] at hs2; injection hs2
        · exact describes_range (i := id.toNat) ht hs3
    have hans : ∀ c d, (match cs[id.toNat]? with
          | none => HwAnswer.fault 0x10 (id.toNat % 2 ^ 16)
          | some c => componentAnswer c id.toNat code.toNat) = .fault c d → c < 256 ∧ d < 2 ^ 16 := by
      intro c d h
      cases hci : cs[id.toNat]? with
      | none =>
        rw [hci] at h; injection h with h1 h2; omega
      | some comp =>
        rw [hci] at h
        unfold componentAnswer at h
        dsimp only at h
        split at h
        all_goals first
          | (cases h; done)
          | (split at h
             · cases h
             · injection h with h1 h2; omega)
    refine (?_ : ∀ ans, getHwInfo pf code id.toNat (atExec s devs1) = outAnswer (atExec s devs1) ans →
      (∀ c d, ans = .fault c d → c < 256 ∧ d < 2 ^ 16) →
      Steps pf s (answered s.regs p0.toNat ans) devs1) _ hinfo hans
    clear hinfo hans
    intro ans hinfo hans
    cases ans with
    | value n =>
      have := steps_ok (cp := if p0 = 0x16#8 then true else false) (devs' := devs1)
        (r := setReg s.regs p0.toNat (BitVec.ofNat 32 n)) hf (by
          show execHwd pf _ _ = _
          unfold execHwd
          rw [M.bind_ok (regOrLit1_val (s := atExec s devs1) hid),
            M.bind_ok (regOrLit1_val (s := atExec s devs1) hcode), if_neg h0', M.bind_ok hinfo]
          exact writeReg_val (s := atExec s devs1) _ hw)
      rwa [assign_eq] at this
    | fault c d =>
      obtain ⟨hc1, hd1⟩ := hans c d rfl
      have := steps_ex (r := s.regs) (devs' := devs1) (cp := false) (c := BitVec.ofNat 8 c) (d := BitVec.ofNat 16 d) hf (by
          show execHwd pf _ _ = _
          unfold execHwd
          rw [M.bind_ok (regOrLit1_val (s := atExec s devs1) hid),
            M.bind_ok (regOrLit1_val (s := atExec s devs1) hcode), if_neg h0', M.bind_ex hinfo]
          rfl)
      rw [BitVec.toNat_ofNat, BitVec.toNat_ofNat, Nat.mod_eq_of_lt hc1, Nat.mod_eq_of_lt hd1] at this
      exact this

/-- **C39**. On a board built from the components `devs`, after any history of host calls, with a well-formed
mapping table (see C43), HWD answers the documented information about the component, and contacts no component:
their states are those the fetch left. If the destination may not be written the exception is that of C10. -/
theorem C39_hwd {devs : List D} {s0 s : Machine D} {ops : List HostOp} {cs : List Component}
    {devs1 : List D} {r0 r1 r2 : Bool} {p0 p1 p2 : U8} {id code : Word}
    (hb : newBoard pf devs = some s0) (hrun : hostRun pf ops s0 = some s) (ht : TableOk pf s.mappings)
    (hcs : Describes pf devs s.mappings cs)
    (hf : Fetches pf s (instrWord 0x1C r0 r1 r2 p0 p1 p2) devs1)
    (hid : Val1 s.regs r1 p1 id) (hcode : Val1 s.regs r2 p2 code)
    (hw : mayWrite (supervisor s.regs) p0.toNat = true) :
    Steps pf s (answered s.regs p0.toNat (hwAnswer cs id.toNat code.toNat)) devs1 := by
  obtain ⟨hk1, hk2, hk3⟩ := hostRun_keeps hrun
  obtain ⟨hc, hh, hd, hm, _⟩ := newBoard_inv hb
  exact hwd_cached (by rw [hk2, hh]; exact hc) (by rw [hk1, hd]) ht hcs hf hid hcode hw

theorem described_of_caches {devs : List D} {maps : List Mapping} {caches : List AuxCache}
    (hc : createCaches pf 0 devs = some caches) (ht : TableOk pf maps) : ∃ cs, Describes pf devs maps cs := by
  obtain ⟨hl, hg⟩ := createCaches_get hc
  refine ⟨devs.mapIdx fun i d => ⟨truncName (Bus.name d), (Bus.metadata pf d).getD (Vector.replicate 8 0),
    (maps.find? (fun m => m.auxId == i)).map fun m => (m.addr.toNat, m.addr.toNat + m.size.toNat - 1)⟩,
    by simp, ?_⟩
  intro i d c hd hc
  rw [List.getElem?_mapIdx, hd] at hc
  injection hc with hc
  subst hc
  obtain ⟨cache, md, _, g2, _⟩ := hg i d hd
  refine ⟨C40_name_cut _, by show _ = some ((Bus.metadata pf d).getD _); rw [g2]; rfl, ?_⟩
  intro a b
  rw [Option.map_eq_some_iff]
  constructor
  · rintro ⟨m, hf, he⟩
    injection he with h1 h2
    exact ⟨m, List.mem_of_find?_eq_some hf, by simpa using List.find?_some hf, h1.symm, h2.symm⟩
  · rintro ⟨m, hm, hi, rfl, rfl⟩
    cases hf : maps.find? (fun m => m.auxId == i) with
    | none =>
      rw [List.find?_eq_none] at hf
      exact absurd (by simpa using hi) (hf m hm)
    | some m' =>
      have hm' := List.mem_of_find?_eq_some hf
      have hi' : m'.auxId = i := by simpa using List.find?_some hf
      have : m' = m := by
        apply Classical.byContradiction
        intro hne
        rcases List.mem_iff_append.mp hm with ⟨l1, l2, hsplit⟩
        have hpw := ht.once
        rw [hsplit, List.pairwise_append] at hpw
        rw [hsplit, List.mem_append, List.mem_cons] at hm'
        rcases hm' with h | h | h
        · exact hpw.2.2 m' h m (by simp) (hi'.trans hi.symm)
        · exact hne h
        · exact (List.pairwise_cons.mp hpw.2.1).1 m' h (hi.trans hi'.symm)
      exact ⟨m, by rw [this], rfl⟩

/-- The description that C39 speaks of exists, for every board and history with a well-formed table. -/
theorem C39_described {devs : List D} {s0 s : Machine D} {ops : List HostOp}
    (hb : newBoard pf devs = some s0) (_hrun : hostRun pf ops s0 = some s) (ht : TableOk pf s.mappings) :
    ∃ cs, Describes pf devs s.mappings cs :=
  described_of_caches (newBoard_inv hb).1 ht

/-- HWD programs: the RAM's size (in `a0`), the first word of the ROM's name (in `a1`), the RAM's last address
(in `a2`), and an unknown component. -/
def Demo.hwdProgram : List Word :=
  [instrWord 0x1C false false false 0 1 0x20, instrWord 0x1C false false false 1 0 0x11,
   instrWord 0x1C false false false 2 1 0xA2, instrWord 0x1C false false false 3 2 0x20]

example : ∃ s : Machine Demo.Dev, ∃ s0,
    newBoard .debug (Demo.devices Demo.hwdProgram) = some s0 ∧
    hostRun .debug [.mapContiguous 0 [0, 1], .reset, .next, .next, .next, .next] s0 = some s ∧
    s.regs.a[0] = 0x40 ∧ s.regs.a[1] = 0x426F6F74 ∧ s.regs.a[2] = 0x7F ∧ s.regs.et = 0x01100002 :=
  ⟨_, _, rfl, rfl, by decide +kernel, by decide +kernel, by decide +kernel, by decide +kernel⟩

/-! ## C41 -/

theorem bridgeReset_set {devs devs' : List D} {id : Nat} (h : bridgeReset devs id = some (some devs')) :
    ∃ d d', devs[id]? = some d ∧ Bus.reset d = some d' ∧ devs' = devs.set id d' := by
  unfold bridgeReset at h
  cases hd : devs[id]? with
  | none => rw [hd] at h; cases h
  | some d =>
    rw [hd] at h
    simp only [Option.bind_eq_bind, Option.bind_eq_some_iff] at h
    obtain ⟨d', h1, h2⟩ := h
    injection h2 with h2; injection h2 with h2
    exact ⟨d, d', rfl, h1, h2.symm⟩

/-- The loop resets the selected components of `id .. id + n - 1`, once each. -/
theorem resetLoop_where {test : Nat → Bool} : ∀ {n id : Nat} {devs devs' : List D},
    resetLoop test id n devs = some devs' →
    ResetWhere (fun i => decide (id ≤ i) && decide (i < id + n) && test i) devs devs' := by
  intro n
  induction n with
  | zero =>
    intro id devs devs' h
    injection h with h; subst h
    refine ⟨rfl, fun i d hd => ?_⟩
    have : (decide (id ≤ i) && decide (i < id + 0) && test i) = false := by
      simp only [Bool.and_eq_false_iff, decide_eq_false_iff_not]; omega
    simp only [this]; exact hd
  | succ n ih =>
    intro id devs devs' h
    unfold resetLoop at h
    have conv : ∀ i, i ≠ id → (decide (id + 1 ≤ i) && decide (i < id + 1 + n) && test i) =
        (decide (id ≤ i) && decide (i < id + (n + 1)) && test i) := by
      intro i hi
      congr 2
      · exact decide_eq_decide.mpr (by omega)
      · exact decide_eq_decide.mpr (by omega)
    split at h
    · next ht =>
      split at h
      · next mid hb =>
        obtain ⟨d0, d0', h1, h2, rfl⟩ := bridgeReset_set hb
        obtain ⟨hl, hw⟩ := ih h
        have hlt : id < devs.length := (List.getElem?_eq_some_iff.mp h1).1
        refine ⟨by rw [hl, List.length_set], fun i d hd => ?_⟩
        by_cases hi : i = id
        · subst hi
          rw [h1] at hd; injection hd with hd; subst hd
          rw [if_pos (by simp [ht])]
          have := hw i d0' (by rw [List.getElem?_set_self hlt])
          rw [if_neg (by simp; intros; omega)] at this
          exact ⟨d0', h2, this⟩
        · have := hw i d (by rw [List.getElem?_set_ne (Ne.symm hi)]; exact hd)
          simp only [conv i hi] at this; exact this
      · cases h
    · next ht =>
      obtain ⟨hl, hw⟩ := ih h
      refine ⟨hl, fun i d hd => ?_⟩
      have := hw i d hd
      by_cases hi : i = id
      · subst hi
        rw [if_neg (by simp; intros; omega)] at this
        rw [if_neg (by simp [ht])]; exact this
      · simp only [conv i hi] at this; exact this

theorem Spec.ResetWhere.congr {sel sel' : Nat → Bool} {devs devs' : List D} (h : ResetWhere sel devs devs')
    (hs : ∀ i < devs.length, sel i = sel' i) : ResetWhere sel' devs devs' :=
  ⟨h.1, fun i d hd => by rw [← hs i (List.getElem?_eq_some_iff.mp hd).1]; exact h.2 i d hd⟩

/-- The component part of RESET. -/
theorem resetDevs_where {mode : Nat} {s t : Machine D} (h : resetDevs mode s = .ok () t) :
    t = { s with devs := t.devs } ∧ ResetWhere (codeResets mode s.regs.avr.toNat) s.devs t.devs ∧
    (mode = 1 → s.regs.avr.toNat < s.devs.length) := by
  refine ⟨resetDevs_ok h, ?_⟩
  unfold resetDevs at h
  rw [getM_bind] at h
  have loop : ∀ test, (do
      let devs ← liftRes (resetLoop test 0 s.devs.length s.devs)
      modifyM (fun s => { s with devs := devs }) : M D Unit) s = .ok () t → ResetWhere test s.devs t.devs := by
    intro test h
    cases hl : resetLoop test 0 s.devs.length s.devs with
    | none => rw [hl] at h; cases h
    | some devs =>
      rw [hl] at h
      injection h with _ h
      rw [← h]
      refine (resetLoop_where hl).congr fun i hi => ?_
      simp [hi]
  split at h
  · exact ⟨loop _ h, by intro h; cases h⟩
  · cases hb : bridgeReset s.devs s.regs.avr.toNat with
    | none => rw [hb] at h; cases h
    | some o =>
      rw [hb] at h
      cases o with
      | none => cases h
      | some devs =>
        injection h with _ h
        obtain ⟨d, d', h1, h2, rfl⟩ := bridgeReset_set hb
        have hlt : s.regs.avr.toNat < s.devs.length := (List.getElem?_eq_some_iff.mp h1).1
        refine ⟨?_, fun _ => hlt⟩
        rw [← h]
        refine ⟨List.length_set, fun i e he => ?_⟩
        by_cases hi : i = s.regs.avr.toNat
        · rw [if_pos (by simp [codeResets, hi])]
          subst hi
          rw [h1] at he; injection he with he; subst he
          exact ⟨d', h2, List.getElem?_set_self hlt⟩
        · rw [if_neg (by simp [codeResets, hi])]
          show (s.devs.set _ _)[i]? = _
          rw [List.getElem?_set_ne (Ne.symm hi)]; exact he
  · exact ⟨loop _ h, by intro h; cases h⟩
  · exact ⟨loop _ h, by intro h; cases h⟩
  · exact ⟨loop _ h, by intro h; cases h⟩
  · next h0 h1 h2 h3 h4 =>
    injection h with _ h
    rw [← h]
    refine ⟨⟨rfl, fun i d hd => ?_⟩, fun h => absurd h h1⟩
    have : codeResets mode s.regs.avr.toNat i = false := by
      unfold codeResets
      split <;> first | rfl | contradiction
    rw [this, if_neg (by simp)]; exact hd

theorem and_low (w : Word) : (w &&& 0x0F#32).toNat = w.toNat % 16 := by
  rw [BitVec.toNat_and]; exact Nat.and_two_pow_sub_one_eq_mod _ 4

theorem and_high (w : Word) : w &&& 0xF0#32 = 0 ↔ w.toNat / 16 % 16 = 0 := by
  have h : (w &&& 0xF0#32).toNat = w.toNat / 16 % 16 * 16 := by
    rw [BitVec.toNat_and]
    have := @Nat.and_two_pow_sub_one_eq_mod (w.toNat / 16) 4
    apply Nat.eq_of_testBit_eq
    intro i
    rw [Nat.testBit_and, show w.toNat / 16 % 16 * 16 = 2 ^ 4 * (w.toNat / 2 ^ 4 % 2 ^ 4) by omega,
      Nat.testBit_two_pow_mul, Nat.testBit_mod_two_pow, Nat.testBit_div_two_pow]
    have hF : (0xF0#32).toNat.testBit i = (decide (4 ≤ i) && decide (i < 8)) := by
      rw [show (0xF0#32).toNat = 2 ^ 4 * (2 ^ 4 - 1) from rfl, Nat.testBit_two_pow_mul, Nat.testBit_two_pow_sub_one]
      by_cases h4 : 4 ≤ i
      · simp only [h4, decide_true, Bool.true_and]; exact decide_eq_decide.mpr (by omega)
      · simp [h4]
    rw [hF]
    by_cases h4 : 4 ≤ i
    · rw [show i - 4 + 4 = i by omega]
      simp only [h4, decide_true, Bool.true_and]
      rw [Bool.and_comm]; congr 1; exact decide_eq_decide.mpr (by omega)
    · simp [h4]
  rw [BitVec.toNat_eq, h]
  show _ = 0 ↔ _
  omega

/-- **C41**, what the code does. A RESET with the given mode either raises 0x10 with the identifier because mode 1
names a component that does not exist (and then resets nothing, not even the processor), or resets exactly once each
selected component and then, if the upper half of the mode is 0, the processor. The selection is the documented one
for modes 0, 1, 2 and the unused modes; what is missing is the component named by `avr` itself in modes 3 and 4
(`C41_inclusive_refuted`). The documentation reserves RESET to supervisor mode: see C14. -/
theorem C41_reset_partial {s s' : Machine D} {devs1 : List D} {r0 r1 r2 : Bool} {p0 p1 p2 : U8} {mode : Word}
    (hf : Fetches pf s (instrWord 0x1F r0 r1 r2 p0 p1 p2) devs1) (hm : Val1 s.regs r0 p0 mode)
    (h : next pf s = some s') :
    (mode.toNat % 16 = 1 ∧ devs1.length ≤ s.regs.avr.toNat ∧ s'.regs = trap s.regs 0x10 (s.regs.avr.toNat % 2 ^ 16) ∧
      s'.devs = devs1 ∧ s'.cycles = s.cycles + 1) ∨
    ((mode.toNat % 16 = 1 → s.regs.avr.toNat < devs1.length) ∧
      ResetWhere (codeResets (mode.toNat % 16) s.regs.avr.toNat) devs1 s'.devs ∧ s'.halted = false ∧
      if mode.toNat / 16 % 16 = 0 then s'.regs = startup ∧ s'.cycles = 0
      else s'.regs = advance s.regs ∧ s'.cycles = s.cycles + 1) := by
  rw [next_of_fetch hf, execWord_instr] at h
  have hrun : runInstr pf ⟨(0x1F : BitVec 5).setWidth 8, r0, r1, r2, p0, p1, p2⟩ (atExec s devs1) =
      execReset ⟨(0x1F : BitVec 5).setWidth 8, r0, r1, r2, p0, p1, p2⟩ (atExec s devs1) := by rw [runInstr_reset rfl]
  rw [hrun] at h
  unfold execReset at h
  rw [M.bind_ok (regOrLit1_val (s := atExec s devs1) hm), and_low] at h
  cases hr : resetDevs (mode.toNat % 16) (atExec s devs1) with
  | panic => rw [M.bind_panic hr] at h; cases h
  | ex t =>
    left
    rw [M.bind_ex hr] at h
    injection h with h
    obtain ⟨rfl, h1⟩ := resetDevs_ex hr
    rw [← h]
    refine ⟨h1, ?_, ?_, rfl, rfl⟩
    · rw [h1] at hr
      unfold resetDevs at hr
      rw [getM_bind] at hr
      cases hb : bridgeReset devs1 s.regs.avr.toNat with
      | none =>
        have hb' : bridgeReset (atExec s devs1).devs (atExec s devs1).regs.avr.toNat = none := hb
        simp only [hb'] at hr; cases hr
      | some o =>
        cases o with
        | none =>
          unfold bridgeReset at hb
          cases hd : devs1[s.regs.avr.toNat]? with
          | none => exact List.getElem?_eq_none_iff.mp hd
          | some d =>
            rw [hd] at hb
            simp only [Option.bind_eq_bind, Option.bind_eq_some_iff] at hb
            obtain ⟨_, _, hb⟩ := hb
            cases hb
        | some devs =>
          have hb' : bridgeReset (atExec s devs1).devs (atExec s devs1).regs.avr.toNat = some (some devs) := hb
          simp only [hb'] at hr; cases hr
    · rw [exception_regs]
      show trap s.regs _ _ = _
      congr 1
  | ok u t =>
    right
    rw [M.bind_ok hr] at h
    obtain ⟨h1, h2, h3⟩ := resetDevs_where hr
    refine ⟨h3, ?_⟩
    by_cases hc : mode.toNat / 16 % 16 = 0
    · rw [if_pos ((and_high mode).mpr hc)] at h
      injection h with h
      rw [← h, if_pos hc]
      exact ⟨h2, rfl, rfl, rfl⟩
    · rw [if_neg (fun h => hc ((and_high mode).mp h))] at h
      have hcp : t.changedPc = false := by rw [h1]; rfl
      have hh : t.halted = false := by rw [h1]; exact hf.1
      have hregs : t.regs = s.regs := by rw [h1]; rfl
      have hcyc : t.cycles = s.cycles + 1 := by rw [h1]; rfl
      change (if t.changedPc then _ else _) = some s' at h
      rw [hcp, if_neg (by simp)] at h
      injection h with h
      rw [← h, if_neg hc]
      refine ⟨h2, hh, ?_, hcyc⟩
      rw [hregs]; rfl

/-- The two tables of selected components differ only for the component named by `avr` in modes 3 and 4. -/
theorem C41_selection_partial {mode avr id : Nat} (h : (mode ≠ 3 ∧ mode ≠ 4) ∨ id ≠ avr) :
    codeResets mode avr id = docResets mode avr id := by
  unfold codeResets docResets
  split <;> first | rfl | (apply decide_eq_decide.mpr; omega)

/-- A processor that runs RESET in mode 3 (upper half not 0) with `avr = 1` on the example board, whose component 1 is
a RAM with a non-zero word. -/
def Demo.resetMachine : Machine Demo.Dev :=
  { Demo.start [instrWord 0x1F false false false 0x13 0 0] with
    regs := { startup with avr := 1 }
    devs := (Demo.devices [instrWord 0x1F false false false 0x13 0 0]).map fun
      | .inl d => .inl d
      | .inr d => .inr { d with storage := d.storage.set 0 0x55 } }

/-- **C41 is false of the code as documented**: in mode 3 the component whose identifier is in `avr` is not reset. -/
theorem C41_inclusive_refuted : ∃ s' : Machine Demo.Dev,
    Fetches .debug Demo.resetMachine (instrWord 0x1F false false false 0x13 0 0) Demo.resetMachine.devs ∧
    next .debug Demo.resetMachine = some s' ∧ docResets 3 1 1 = true ∧
    s'.devs[1]? = Demo.resetMachine.devs[1]? ∧
    ¬ ResetWhere (docResets 3 1) Demo.resetMachine.devs s'.devs := by
  refine ⟨_, ⟨rfl, rfl⟩, rfl, rfl, rfl, ?_⟩
  rintro ⟨_, h⟩
  obtain ⟨d', h1, h2⟩ := h 1 _ rfl
  revert h2
  injection h1 with h1
  subst h1
  decide +kernel

end Lrvm
