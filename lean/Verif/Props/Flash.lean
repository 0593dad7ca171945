import Verif.Spec.Devices

/-! # Property C79: the stored device description -/

namespace Firefly.Props
open Flash

theorem get32_le32 (pre : List U8) (x : U32) (post : List U8) (off : Nat) (h : pre.length = off) :
    get32 (pre ++ (le32 x ++ post)) off = x := by
  have key : (x.setWidth 8).setWidth 32 ||| ((x >>> 8).setWidth 8).setWidth 32 <<< 8 |||
      ((x >>> 16).setWidth 8).setWidth 32 <<< 16 |||
      ((x >>> 24).setWidth 8).setWidth 32 <<< 24 = x := by
    ext i hi
    simp
    grind
  subst h
  have g : ∀ k, k < 4 → (pre ++ (le32 x ++ post)).getD (pre.length + k) 0 = (le32 x).getD k 0 := by
    intro k hk
    simp only [List.getD_eq_getElem?_getD]
    rw [List.getElem?_append_right (by omega), Nat.add_sub_cancel_left,
      List.getElem?_append_left (by simpa [le32] using hk)]
  unfold get32
  have g0 := g 0 (by omega)
  simp only [Nat.add_zero] at g0
  rw [g0, g 1 (by omega), g 2 (by omega), g 3 (by omega)]
  exact key

theorem le32_length (x : U32) : (le32 x).length = 4 := rfl

theorem bytes_length (o : Object) : o.bytes.length = 20 := rfl

/-- Bytes written from an object are read back as that object, whatever follows. -/
theorem ofBytes_bytes (o : Object) (r : List U8) : Object.ofBytes (o.bytes ++ r) = o := by
  cases o with
  | mk a b c d e =>
    simp only [Object.ofBytes, Object.bytes, Object.mk.injEq]
    refine ⟨?_, ?_, ?_, ?_, ?_⟩
    · simpa [List.append_assoc] using get32_le32 [] a (le32 b ++ (le32 c ++ (le32 d ++ (le32 e ++ r)))) 0 rfl
    · simpa [List.append_assoc] using get32_le32 (le32 a) b (le32 c ++ (le32 d ++ (le32 e ++ r))) 4 rfl
    · simpa [List.append_assoc] using get32_le32 (le32 a ++ le32 b) c (le32 d ++ (le32 e ++ r)) 8 rfl
    · simpa [List.append_assoc] using get32_le32 (le32 a ++ le32 b ++ le32 c) d (le32 e ++ r) 12 rfl
    · simpa [List.append_assoc] using get32_le32 (le32 a ++ le32 b ++ le32 c ++ le32 d) e r 16 rfl

theorem programAll_take (l : List U8) (k : Nat) (hk : k < l.length) :
    (programAll l).take (k + 1) = (programAll l).take k ++ [.program k l[k]] := by
  have hlen : (programAll l).length = l.length := by simp [programAll]
  rw [List.take_succ_eq_append_getElem (by omega)]
  simp [programAll]

/-- The storage after erasing and programming the first `k` bytes. -/
theorem afterOps_program (storage l : List U8) (hl : l.length ≤ kMaxSize) (k : Nat)
    (hk : k ≤ l.length) :
    afterOps storage (.erase :: programAll l) (k + 1) =
      l.take k ++ List.replicate (kMaxSize - k) 0xFF := by
  have e : afterOps storage (.erase :: programAll l) (k + 1) =
      ((programAll l).take k).foldl Op.apply (List.replicate kMaxSize 0xFF) := rfl
  rw [e]; clear e
  induction k with
  | zero => rfl
  | succ k ih =>
    rw [programAll_take l k (by omega), List.foldl_append, ih (by omega)]
    simp only [List.foldl_cons, List.foldl_nil, Op.apply]
    have hlen : (l.take k).length = k := by simp; omega
    apply List.ext_getElem?
    intro i
    rw [List.getElem?_set]
    simp only [List.length_append, hlen, List.length_replicate]
    by_cases hi : k = i
    · subst hi
      rw [if_pos rfl, if_pos (by omega), List.getElem?_append_left (by simp; omega),
        List.getElem?_take, if_pos (by omega), List.getElem?_eq_getElem (by omega)]
    · rw [if_neg hi]
      by_cases hik : i < k
      · rw [List.getElem?_append_left (by omega), List.getElem?_append_left (by simp; omega),
          List.getElem?_take, List.getElem?_take, if_pos hik, if_pos (by omega)]
      · rw [List.getElem?_append_right (by omega), List.getElem?_append_right (by simp; omega)]
        simp only [hlen, List.length_take, List.getElem?_replicate]
        have e1 : min (k + 1) l.length = k + 1 := by omega
        rw [e1]
        by_cases h1 : i - k < kMaxSize - k
        · rw [if_pos h1, if_pos (by omega)]
        · rw [if_neg h1, if_neg (by omega)]

/-- A check value with an erased byte at its most significant end is invalid. -/
theorem check_torn {l : List U8} (h : l.getD 19 0 = 0xFF) : get32 l 16 ≠ kCheckValue := by
  intro he
  have h31 : (get32 l 16).getLsbD 31 = true := by
    unfold get32
    rw [h]
    simp
  rw [he] at h31
  exact absurd h31 (by decide)

theorem ofBytes_congr {l l' : List U8} (h : l.take 20 = l'.take 20) :
    Object.ofBytes l = Object.ofBytes l' := by
  have g : ∀ i, i < 20 → l.getD i 0 = l'.getD i 0 := by
    intro i hi
    have : (l.take 20)[i]? = (l'.take 20)[i]? := by rw [h]
    rw [List.getElem?_take, List.getElem?_take, if_pos hi, if_pos hi] at this
    simp [List.getD_eq_getElem?_getD, this]
  simp only [Object.ofBytes, get32, g, Nat.reduceAdd, Nat.reduceLT]

theorem readDevice_torn {l : List U8} (h : l.getD 19 0 = 0xFF) (ok : Bool) :
    readDevice ok l = .fallback := by
  unfold readDevice
  cases ok
  · rfl
  · simp only [if_true]
    rw [if_pos]
    exact check_torn h

theorem readDevice_written {l : List U8} {o : Object} (ho : o.check = kCheckValue)
    (h : l.take 20 = o.bytes) : readDevice true l = .stored o := by
  unfold readDevice
  have : Object.ofBytes l = o := by
    rw [← ofBytes_bytes o []]
    exact ofBytes_congr (by rw [h, List.append_nil]; exact (List.take_of_length_le (Nat.le_refl 20)).symm)
  simp [this, ho]

/-- The bytes programmed by a write that is not skipped. -/
theorem writeOps_eq {b o trailing storage} (hs : storage.length = kMaxSize)
    (h : storage.take objectSize ≠ o.bytes) :
    ∃ l, l.length ≤ kMaxSize ∧ 20 ≤ l.length ∧ l.take 20 = o.bytes ∧
      writeOps b o trailing storage = .erase :: programAll l := by
  cases b with
  | node =>
    refine ⟨(o.bytes ++ trailing).take kMaxSize, by simp; omega,
      by simp [bytes_length, kMaxSize]; omega, ?_, by simp [writeOps, h]⟩
    rw [List.take_take, show min 20 kMaxSize = 20 from rfl,
      List.take_append_of_le_length (by simp [bytes_length])]
    exact List.take_of_length_le (by simp [bytes_length])
  | fancyNode =>
    refine ⟨o.bytes ++ storage.drop objectSize, ?_, by simp [bytes_length], ?_,
      by simp [writeOps, h]⟩
    · simp [bytes_length, hs, objectSize, kMaxSize]
    · rw [List.take_append_of_le_length (by simp [bytes_length])]
      exact List.take_of_length_le (by simp [bytes_length])

/-- C79.  After a write has run to completion, reading yields exactly the object written: for
every board, previous storage content and memory content. -/
theorem read_after_write (b : Board) (o : Object) (ho : o.check = kCheckValue)
    (trailing storage : List U8) (hs : storage.length = kMaxSize) :
    readDevice true (afterOps storage (writeOps b o trailing storage)
      (writeOps b o trailing storage).length) = .stored o := by
  by_cases h : storage.take objectSize = o.bytes
  · have e : writeOps b o trailing storage = [] := if_pos h
    rw [e]
    exact readDevice_written ho h
  · obtain ⟨l, hl, hl20, ht, e⟩ := writeOps_eq (b := b) (trailing := trailing) hs h
    have hlen : (programAll l).length = l.length := by simp [programAll]
    rw [e, List.length_cons, hlen, afterOps_program storage l hl _ (Nat.le_refl _)]
    apply readDevice_written ho
    rw [List.take_length, List.take_append_of_le_length hl20, ht]

/-- C79.  Writing the same description again performs no operation on the storage. -/
theorem second_write_is_free (b : Board) (o : Object) (trailing trailing' storage : List U8)
    (hs : storage.length = kMaxSize) :
    writeOps b o trailing' (afterOps storage (writeOps b o trailing storage)
      (writeOps b o trailing storage).length) = [] := by
  by_cases h : storage.take objectSize = o.bytes
  · have e : writeOps b o trailing storage = [] := if_pos h
    rw [e]
    exact if_pos h
  · obtain ⟨l, hl, hl20, ht, e⟩ := writeOps_eq (b := b) (trailing := trailing) hs h
    have hlen : (programAll l).length = l.length := by simp [programAll]
    rw [e, List.length_cons, hlen, afterOps_program storage l hl _ (Nat.le_refl _)]
    apply if_pos
    rw [List.take_length, show objectSize = 20 from rfl, List.take_append_of_le_length hl20, ht]

/-- C79.  Power may fail after any number of storage operations: the next start then finds what
was stored before (nothing has happened yet), no valid description (and falls back to the
built-in one), or the complete new description; never a mixture. -/
theorem power_loss_safe (b : Board) (o : Object) (ho : o.check = kCheckValue)
    (trailing storage : List U8) (hs : storage.length = kMaxSize) (k : Nat) :
    let found := readDevice true (afterOps storage (writeOps b o trailing storage) k)
    found = readDevice true storage ∨ found = .fallback ∨ found = .stored o := by
  intro found
  by_cases h : storage.take objectSize = o.bytes
  · have e : writeOps b o trailing storage = [] := if_pos h
    left
    show readDevice true (afterOps storage (writeOps b o trailing storage) k) = _
    rw [e]; simp [afterOps]
  · obtain ⟨l, hl, hl20, ht, e⟩ := writeOps_eq (b := b) (trailing := trailing) hs h
    have hf : found = readDevice true (afterOps storage (.erase :: programAll l) k) := by
      rw [← e]
    rw [hf]
    cases k with
    | zero => left; simp [afterOps]
    | succ k =>
      right
      have hlen : (programAll l).length = l.length := by simp [programAll]
      have hk : afterOps storage (.erase :: programAll l) (k + 1) =
          l.take (min k l.length) ++ List.replicate (kMaxSize - min k l.length) 0xFF := by
        rw [← afterOps_program storage l hl _ (Nat.min_le_right _ _)]
        simp only [afterOps, List.take_succ_cons]
        rw [← hlen, List.take_eq_take_min]
      rw [hk]
      by_cases h20 : 20 ≤ k
      · right
        apply readDevice_written ho
        rw [List.take_append_of_le_length (by simp; omega), List.take_take,
          show min 20 (min k l.length) = 20 by omega, ht]
      · left
        apply readDevice_torn
        simp only [List.getD_eq_getElem?_getD]
        rw [List.getElem?_append_right (by simp; omega), List.getElem?_replicate, if_pos]
        · rfl
        · simp [kMaxSize]; omega

/-- An example: the storage holds another description; power fails after the erasure and 10 of
the bytes. -/
example : let o : Object := ⟨2350, 0x20000400, 0x20000402, 0x20000402, kCheckValue⟩
    let old : List U8 := (Object.bytes ⟨1000, 0x20000800, 0x20000804, 0x20000804, kCheckValue⟩) ++
      List.replicate 108 0
    old.length = kMaxSize ∧
    readDevice true old = .stored ⟨1000, 0x20000800, 0x20000804, 0x20000804, kCheckValue⟩ ∧
    readDevice true (afterOps old (writeOps .node o [] old) 11) = .fallback ∧
    readDevice true (afterOps old (writeOps .node o [] old) 21) = .stored o := by
  decide +kernel

/-- C79 depends on the erasure being a single step: if power fails when the first four bytes are
erased but the check value is not yet, the damaged description is accepted. -/
theorem interrupted_erasure_accepted :
    ∃ o : Object, o.check = kCheckValue ∧
      readDevice true ((o.bytes.set 0 0xFF).set 1 0xFF |>.set 2 0xFF |>.set 3 0xFF) =
        .stored { o with milliamps := 0xFFFFFFFF } ∧ o.milliamps ≠ 0xFFFFFFFF :=
  ⟨⟨2350, 0x20000400, 0x20000402, 0x20000402, kCheckValue⟩, rfl, by decide +kernel, by decide⟩

/-- The storage holds the addresses of the strips, not the strips.  In the run that wrote the
description (or any run whose memory has the same content there) the strips are right … -/
theorem stored_device_same_memory (current : Device) (heap : U32 → U8) (o : Object)
    (hm : o.milliamps = current.milliamps) (hst : o.strips heap = current.strips) :
    (Used.stored o).device current heap = current := by
  simp [Used.device, hm, hst]

/-- … but the stored bytes do not determine them: for every stored description and every list of
strips of the same length there is a memory content with which the board runs those strips. -/
theorem stored_device_not_self_contained (current : Device) (o : Object) (l : List Strip)
    (hl : l.length = (o.last - o.first).toNat / 2) :
    ∃ heap, (Used.stored o).device current heap = ⟨o.milliamps, l⟩ := by
  refine ⟨fun a =>
    let d := (a - o.first).toNat
    let s := l.getD (d / 2) ⟨0, 0⟩
    if d % 2 = 0 then s.count else s.flags, ?_⟩
  simp only [Used.device, Object.strips, Device.mk.injEq, true_and]
  apply List.ext_getElem
  · simp [hl]
  · intro i h1 h2
    have hlt := (o.last - o.first).isLt
    have e0 : (o.first + BitVec.ofNat 32 (2 * i) - o.first).toNat = 2 * i := by
      rw [BitVec.add_comm, BitVec.add_sub_cancel, BitVec.toNat_ofNat]
      exact Nat.mod_eq_of_lt (by omega)
    have e1 : (o.first + BitVec.ofNat 32 (2 * i + 1) - o.first).toNat = 2 * i + 1 := by
      rw [BitVec.add_comm, BitVec.add_sub_cancel, BitVec.toNat_ofNat]
      exact Nat.mod_eq_of_lt (by omega)
    simp only [List.getElem_map, List.getElem_range, e0, e1]
    rw [if_pos (by omega), if_neg (by omega), show 2 * i / 2 = i by omega,
      show (2 * i + 1) / 2 = i by omega]
    simp [List.getD_eq_getElem?_getD, List.getElem?_eq_getElem h2]

example : ([⟨30, 2⟩] : List Strip).length =
    ((⟨2350, 0x20000400, 0x20000402, 0x20000402, kCheckValue⟩ : Object).last -
      (⟨2350, 0x20000400, 0x20000402, 0x20000402, kCheckValue⟩ : Object).first).toNat / 2 := by
  decide

end Firefly.Props
