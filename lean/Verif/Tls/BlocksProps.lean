import Verif.Tls.Blocks
import Mathlib.Tactic.SplitIfs
/-!
C130: the input buffers refine the byte stream.
-/
namespace Verif.Tls.Blocks
open Verif Verif.Tls

/-! ### the rest of the connection does not look at the stream -/

def plug (st : Bytes) (se : String) (i : Option Bytes) (c : Conn) : Conn := { c with stream := st, streamErr := se, input := i }

def mapC {α : Type} (g : Conn → Conn) : Res (α × Conn) → Res (α × Conn)
  | .ok (a, c) => .ok (a, g c)
  | .err x => .err x
  | .panic => .panic

section
variable (st : Bytes) (se : String) (i : Option Bytes)

theorem netWrite_plug (c : Conn) (d : Bytes) : (plug st se i c).netWrite d = ((c.netWrite d).1, plug st se i (c.netWrite d).2) := by
  unfold Conn.netWrite
  rw [show (plug st se i c).writes = c.writes from rfl]
  split <;> rfl

theorem write_plug (c : Conn) (d : Bytes) : (plug st se i c).write d = ((c.write d).1, plug st se i (c.write d).2) := by
  unfold Conn.write
  rw [show (plug st se i c).buffering = c.buffering from rfl]
  split
  · rfl
  · exact netWrite_plug st se i c d

theorem maxPayload_plug (c : Conn) (t : Byte) (e : Nat) : (plug st se i c).maxPayloadSizeForWrite t e =
    ((c.maxPayloadSizeForWrite t e).1, plug st se i (c.maxPayloadSizeForWrite t e).2) := by
  unfold Conn.maxPayloadSizeForWrite
  simp only [show (plug st se i c).sizingDisabled = c.sizingDisabled from rfl, show (plug st se i c).bytesSent = c.bytesSent from rfl,
    show (plug st se i c).packetsSent = c.packetsSent from rfl]
  split
  · rfl
  · split
    · rfl
    · split <;> rfl

theorem writeLoop_plug (k : Nat) : ∀ (c : Conn) (t : Byte) (d : Bytes) (n : Nat), Conn.writeLoop k (plug st se i c) t d n =
    match Conn.writeLoop k c t d n with
    | .ok (m, e, c) => .ok (m, e, plug st se i c)
    | .err x => .err x
    | .panic => .panic := by
  induction k with
  | zero =>
    intro c t d n
    unfold Conn.writeLoop
    split
    · rfl
    · rfl
  | succ k ih =>
    intro c t d n
    unfold Conn.writeLoop
    split
    · rfl
    · simp only
      rw [show (plug st se i c).out = c.out from rfl, maxPayload_plug]
      simp only
      generalize hr : c.maxPayloadSizeForWrite t c.out.writeIVLen = r
      obtain ⟨sz, c1⟩ := r
      simp only
      split
      · rfl
      · rw [show (plug st se i c1).out = c1.out from rfl, show (plug st se i c1).rand = c1.rand from rfl]
        split
        · rfl
        · have step : ∀ (d : Conn) (iv x y : Bytes) (m : Nat),
              (match (plug st se i d).out.writeOne ((plug st se i d).recHdr t) iv x with
                | .ok (b, out') =>
                  match ({ plug st se i d with out := out' } : Conn).write b with
                  | (some err, c) => .ok (n, some err, c)
                  | (none, c) => Conn.writeLoop k c t y m
                | .err x => .err x
                | .panic => .panic : Res (Nat × Option String × Conn)) =
              match (match d.out.writeOne (d.recHdr t) iv x with
                | .ok (b, out') =>
                  match ({ d with out := out' } : Conn).write b with
                  | (some err, c) => .ok (n, some err, c)
                  | (none, c) => Conn.writeLoop k c t y m
                | .err x => .err x
                | .panic => .panic : Res (Nat × Option String × Conn)) with
              | .ok (m, e, c) => .ok (m, e, plug st se i c)
              | .err x => .err x
              | .panic => .panic := by
            intro d iv x y m
            rw [show (plug st se i d).out = d.out from rfl, show (plug st se i d).recHdr t = d.recHdr t from rfl]
            generalize d.out.writeOne (d.recHdr t) iv x = r
            rcases r with ⟨b, out'⟩ | x | _
            · dsimp only
              have e := write_plug st se i { d with out := out' } b
              dsimp only [plug] at e ⊢
              rw [e]
              generalize Conn.write _ b = w
              obtain ⟨e, c3⟩ := w
              cases e with
              | none => exact ih _ _ _ _
              | some x => rfl
            · rfl
            · rfl
          by_cases hb : (c.out.writeIVLen != 0 && !c1.out.ivIsSeq) = true
          · rw [if_pos hb, if_pos hb]
            exact step { c1 with rand := c1.rand.drop c.out.writeIVLen } _ _ _ _
          · rw [if_neg hb, if_neg hb]
            exact step c1 _ _ _ _

theorem sendAlert_plug (c : Conn) (a : Byte) : (plug st se i c).sendAlert a = mapC (plug st se i) (c.sendAlert a) := by
  unfold Conn.sendAlert
  simp only
  rw [writeLoop_plug]
  generalize Conn.writeLoop 2 c typAlert _ 0 = r
  rcases r with ⟨m, e, c1⟩ | x | _
  · simp only; split <;> rfl
  · rfl
  · rfl

theorem failAlert_plug (c : Conn) (a : Byte) : (plug st se i c).failAlert a = mapC (plug st se i) (c.failAlert a) := by
  unfold Conn.failAlert
  rw [sendAlert_plug]
  generalize c.sendAlert a = r
  rcases r with ⟨e, c1⟩ | x | _ <;> rfl

theorem failMsg_plug (c : Conn) (a : Byte) (m : String) : (plug st se i c).failMsg a m = mapC (plug st se i) (c.failMsg a m) := by
  unfold Conn.failMsg
  rw [sendAlert_plug]
  generalize c.sendAlert a = r
  rcases r with ⟨e, c1⟩ | x | _ <;> rfl

theorem asDone_mapC (g : Conn → Conn) (r : Res (Option String × Conn)) : asDone (mapC g r) = mapC g (asDone r) := by
  rcases r with ⟨e, c1⟩ | x | _ <;> rfl

theorem processRecord_plug (c : Conn) (want typ : Byte) (data : Bytes) (hno : ¬ (data.length ≤ 16384 ∧ typ = typAppData ∧ typ = want)) :
    (plug st se i c).processRecord want typ data = mapC (plug st se i) (c.processRecord want typ data) := by
  unfold Conn.processRecord
  split
  · rw [failAlert_plug, asDone_mapC]
  rename_i hl
  have hw : (if typ ≠ typAlert ∧ data.length > 0 then ({ plug st se i c with warnCount := 0 } : Conn) else plug st se i c) =
      plug st se i (if typ ≠ typAlert ∧ data.length > 0 then { c with warnCount := 0 } else c) := by split <;> rfl
  simp only
  rw [hw]
  generalize (if typ ≠ typAlert ∧ data.length > 0 then ({ c with warnCount := 0 } : Conn) else c) = c1
  split
  · split
    · rw [failAlert_plug, asDone_mapC]
    · split
      · rfl
      · split
        · rw [show (plug st se i c1).warnCount = c1.warnCount from rfl]
          split
          · rw [show ({ plug st se i c1 with warnCount := c1.warnCount + 1 } : Conn) = plug st se i { c1 with warnCount := c1.warnCount + 1 } from rfl,
              failMsg_plug, asDone_mapC]
          · rfl
        · split
          · rfl
          · rw [failAlert_plug, asDone_mapC]
  · split
    · split
      · rw [failAlert_plug, asDone_mapC]
      · rw [show (plug st se i c1).hand = c1.hand from rfl, show (plug st se i c1).inp = c1.inp from rfl]
        split
        · rw [failAlert_plug, asDone_mapC]
        · split
          · rfl
          · rw [failAlert_plug, asDone_mapC]
    · split
      · rename_i ht
        rw [if_pos, if_pos, failAlert_plug, asDone_mapC]
        all_goals
          intro he
          exact hno ⟨by omega, ht, he⟩
      · split
        · rw [show (plug st se i c1).isClient = c1.isClient from rfl, show (plug st se i c1).renegotiation = c1.renegotiation from rfl]
          split
          · rw [failAlert_plug, asDone_mapC]
          · rfl
        · rw [failAlert_plug, asDone_mapC]

end

/-! ### memory -/

theorem slice_length (f : Nat → Byte) (a n : Nat) : (slice f a n).length = n := by simp [slice]

theorem slice_congr {f g : Nat → Byte} {a n : Nat} (h : ∀ i, a ≤ i → i < a + n → f i = g i) : slice f a n = slice g a n := by
  unfold slice
  refine List.map_congr_left fun i hi => h _ (by omega) ?_
  have := List.mem_range.1 hi
  omega

theorem slice_append (f : Nat → Byte) (a n m : Nat) : slice f a (n + m) = slice f a n ++ slice f (a + n) m := by
  unfold slice
  rw [List.range_add, List.map_append, List.map_map]
  congr 1
  refine List.map_congr_left fun i _ => ?_
  simp [Nat.add_assoc]

theorem slice_take (f : Nat → Byte) (a n m : Nat) (h : m ≤ n) : (slice f a n).take m = slice f a m := by
  obtain ⟨k, rfl⟩ : ∃ k, n = m + k := ⟨n - m, by omega⟩
  rw [slice_append, List.take_append_of_le_length (by rw [slice_length]), List.take_of_length_le (by rw [slice_length])]

theorem slice_drop (f : Nat → Byte) (a n m : Nat) (h : m ≤ n) : (slice f a n).drop m = slice f (a + m) (n - m) := by
  obtain ⟨k, rfl⟩ : ∃ k, n = m + k := ⟨n - m, by omega⟩
  rw [slice_append, List.drop_append_of_le_length (by rw [slice_length]), List.drop_of_length_le (by rw [slice_length])]
  simp

theorem slice_store (h : Heap) (arr pos : Nat) (d : Bytes) : slice ((h.store arr pos d).mem arr) pos d.length = d := by
  unfold slice
  refine List.ext_getElem (by simp) fun j h1 h2 => ?_
  simp only [List.getElem_map, List.getElem_range, Heap.store]
  rw [if_pos ⟨trivial, by omega, by omega⟩, show pos + j - pos = j by omega]
  simp [List.getD, h2]

theorem store_other (h : Heap) (arr pos : Nat) (d : Bytes) (a : Nat) (ha : a ≠ arr) : (h.store arr pos d).mem a = h.mem a := by
  funext j
  simp only [Heap.store]
  rw [if_neg]
  rintro ⟨rfl, _⟩
  exact ha rfl

theorem store_before (h : Heap) (arr pos : Nat) (d : Bytes) (n : Nat) (hn : n ≤ pos) : slice ((h.store arr pos d).mem arr) 0 n = slice (h.mem arr) 0 n := by
  refine slice_congr fun j _ hj => ?_
  simp only [Heap.store]
  rw [if_neg]
  rintro ⟨_, hp, _⟩
  omega

theorem grow_ge (k : Nat) : ∀ m n, 0 < m → n ≤ m * 2 ^ k → n ≤ grow k m n := by
  induction k with
  | zero => intro m n _ h; simpa [grow] using h
  | succ k ih =>
    intro m n hm h
    rw [grow]
    split
    · refine ih _ _ (by omega) ?_
      rw [Nat.pow_succ] at h
      rw [Nat.mul_assoc, Nat.mul_comm 2]
      exact h
    · omega

theorem grow_enough (m n : Nat) (hm : 0 < m) : n ≤ grow n m n :=
  grow_ge n m n hm (by
    have := Nat.lt_two_pow_self (n := n)
    calc n ≤ 2 ^ n := by omega
      _ = 1 * 2 ^ n := by omega
      _ ≤ m * 2 ^ n := Nat.mul_le_mul_right _ hm)

/-- the blocks in use or in the free list: all different, each with an array of its own -/
structure WF (h : Heap) (L : List Nat) : Prop where
  nodup : L.Nodup
  blk : ∀ b ∈ L, b < h.nextB
  arr : ∀ b ∈ L, (h.blocks b).arr < h.nextA
  len : ∀ b ∈ L, (h.blocks b).len ≤ (h.blocks b).cap
  apart : ∀ b ∈ L, ∀ b' ∈ L, b ≠ b' → (h.blocks b).arr ≠ (h.blocks b').arr

/-- no block but `b` has changed -/
def Frame (h h' : Heap) (L : List Nat) (b : Nat) : Prop := ∀ j ∈ L, j ≠ b → h'.blocks j = h.blocks j ∧ h'.data j = h.data j

theorem data_congr {h H : Heap} {j : Nat} (e : H.blocks j = h.blocks j) (m : H.mem (h.blocks j).arr = h.mem (h.blocks j).arr) : H.data j = h.data j := by
  unfold Heap.data
  rw [e, m]

theorem Frame.unread {h h' : Heap} {L : List Nat} {b : Nat} (f : Frame h h' L b) {j : Nat} (hj : j ∈ L) (hn : j ≠ b) : h'.unread j = h.unread j := by
  unfold Heap.unread
  rw [(f j hj hn).1, (f j hj hn).2]

theorem Frame.trans {h h' h'' : Heap} {L : List Nat} {b : Nat} (f : Frame h h' L b) (g : Frame h' h'' L b) : Frame h h'' L b :=
  fun j hj hn => ⟨(g j hj hn).1.trans (f j hj hn).1, (g j hj hn).2.trans (f j hj hn).2⟩

theorem Frame.refl (h : Heap) (L : List Nat) (b : Nat) : Frame h h L b := fun _ _ _ => ⟨rfl, rfl⟩

theorem WF.perm {h : Heap} {L L' : List Nat} (w : WF h L) (p : L.Perm L') : WF h L' :=
  ⟨p.nodup_iff.1 w.nodup, fun b hb => w.blk b (p.mem_iff.2 hb), fun b hb => w.arr b (p.mem_iff.2 hb), fun b hb => w.len b (p.mem_iff.2 hb),
    fun b hb b' hb' => w.apart b (p.mem_iff.2 hb) b' (p.mem_iff.2 hb')⟩

theorem WF.sub {h : Heap} {L L' : List Nat} (w : WF h L) (p : L'.Sublist L) : WF h L' :=
  ⟨p.nodup w.nodup, fun b hb => w.blk b (p.subset hb), fun b hb => w.arr b (p.subset hb), fun b hb => w.len b (p.subset hb),
    fun b hb b' hb' => w.apart b (p.subset hb) b' (p.subset hb')⟩

theorem data_length (h : Heap) (b : Nat) : (h.data b).length = (h.blocks b).len := slice_length _ _ _

/-- writing to the array of `b` and changing its length -/
theorem store_wf {h : Heap} {L : List Nat} (w : WF h L) {b : Nat} (hb : b ∈ L) (pos : Nat) (d : Bytes) (len off : Nat) (hl : len ≤ (h.blocks b).cap) :
    WF ((h.store (h.blocks b).arr pos d).setBlk b { h.blocks b with len := len, off := off }) L ∧
      Frame h ((h.store (h.blocks b).arr pos d).setBlk b { h.blocks b with len := len, off := off }) L b := by
  refine ⟨⟨w.nodup, w.blk, ?_, ?_, ?_⟩, ?_⟩
  · intro j hj
    simp only [Heap.setBlk, Heap.store]
    split
    · exact w.arr b hb
    · exact w.arr j hj
  · intro j hj
    simp only [Heap.setBlk, Heap.store]
    split
    · exact hl
    · exact w.len j hj
  · intro j hj k hk hn
    simp only [Heap.setBlk, Heap.store]
    split <;> split <;> rename_i h1 h2
    · exact absurd (h1.trans h2.symm) hn
    · exact w.apart b hb k hk (by rintro rfl; exact h2 rfl)
    · exact w.apart j hj b hb (by rintro rfl; exact h1 rfl)
    · exact w.apart j hj k hk hn
  · intro j hj hn
    have e : ((h.store (h.blocks b).arr pos d).setBlk b { h.blocks b with len := len, off := off }).blocks j = h.blocks j := by
      simp only [Heap.setBlk, Heap.store]
      rw [if_neg hn]
    exact ⟨e, data_congr e (store_other h (h.blocks b).arr pos d (h.blocks j).arr (w.apart j hj b hb hn))⟩

theorem reserve_spec {h : Heap} {L : List Nat} (w : WF h L) {b : Nat} (hb : b ∈ L) (n : Nat) :
    WF (h.reserve b n) L ∧ Frame h (h.reserve b n) L b ∧ (h.reserve b n).data b = h.data b ∧ n ≤ ((h.reserve b n).blocks b).cap ∧
      ((h.reserve b n).blocks b).len = (h.blocks b).len ∧ ((h.reserve b n).blocks b).off = (h.blocks b).off := by
  unfold Heap.reserve
  simp only
  split
  · rename_i hc
    exact ⟨w, Frame.refl _ _ _, rfl, hc, rfl, rfl⟩
  rename_i hc
  have hm : n ≤ grow n (if (h.blocks b).cap = 0 then 1024 else (h.blocks b).cap) n := grow_enough _ _ (by split <;> omega)
  generalize grow n (if (h.blocks b).cap = 0 then 1024 else (h.blocks b).cap) n = m at hm
  have hlen := w.len b hb
  refine ⟨⟨w.nodup, w.blk, ?_, ?_, ?_⟩, ?_, ?_, ?_, ?_, ?_⟩
  · intro j hj
    simp only [Heap.setBlk, Heap.store]
    split
    · exact Nat.lt_succ_self _
    · exact Nat.lt_succ_of_lt (w.arr j hj)
  · intro j hj
    simp only [Heap.setBlk, Heap.store]
    split
    · show (h.blocks b).len ≤ m
      omega
    · exact w.len j hj
  · intro j hj k hk hn
    simp only [Heap.setBlk, Heap.store]
    split <;> split <;> rename_i h1 h2
    · exact absurd (h1.trans h2.symm) hn
    · exact (Nat.ne_of_lt (w.arr k hk)).symm
    · exact Nat.ne_of_lt (w.arr j hj)
    · exact w.apart j hj k hk hn
  · intro j hj hn
    have e : ((({ h with nextA := h.nextA + 1 } : Heap).store h.nextA 0 (h.data b)).setBlk b { h.blocks b with arr := h.nextA, cap := m }).blocks j = h.blocks j := by
      simp only [Heap.setBlk, Heap.store]
      rw [if_neg hn]
    exact ⟨e, data_congr e (store_other ({ h with nextA := h.nextA + 1 } : Heap) h.nextA 0 (h.data b) (h.blocks j).arr (Nat.ne_of_lt (w.arr j hj)))⟩
  · have := slice_store ({ h with nextA := h.nextA + 1 } : Heap) h.nextA 0 (h.data b)
    rw [data_length] at this
    conv_lhs => unfold Heap.data
    simp only [Heap.setBlk, if_true]
    exact this
  · simp only [Heap.setBlk, if_true]
    exact hm
  · simp only [Heap.setBlk, if_true]
  · simp only [Heap.setBlk, if_true]


theorem setBlk_wf {h : Heap} {L : List Nat} (w : WF h L) {b : Nat} (hb : b ∈ L) (len off : Nat) (hl : len ≤ (h.blocks b).cap) :
    WF (h.setBlk b { h.blocks b with len := len, off := off }) L ∧ Frame h (h.setBlk b { h.blocks b with len := len, off := off }) L b := by
  have := store_wf w hb 0 [] len off hl
  have e : h.store (h.blocks b).arr 0 [] = h := by
    unfold Heap.store
    congr 1
    funext a j
    rw [if_neg]
    rintro ⟨_, _, h3⟩
    simp only [List.length_nil] at h3
    omega
  rw [e] at this
  exact this

/-- `resize` within what follows: the block has this length, the others are untouched -/
theorem resize_spec {h : Heap} {L : List Nat} (w : WF h L) {b : Nat} (hb : b ∈ L) (n : Nat) :
    WF (h.resize b n) L ∧ Frame h (h.resize b n) L b ∧ ((h.resize b n).blocks b).len = n ∧ ((h.resize b n).blocks b).off = (h.blocks b).off := by
  unfold Heap.resize
  simp only
  have key : ∀ h1 : Heap, WF h1 L → Frame h h1 L b → n ≤ (h1.blocks b).cap → (h1.blocks b).off = (h.blocks b).off →
      WF (h1.setBlk b { h1.blocks b with len := n }) L ∧ Frame h (h1.setBlk b { h1.blocks b with len := n }) L b ∧
        ((h1.setBlk b { h1.blocks b with len := n }).blocks b).len = n ∧ ((h1.setBlk b { h1.blocks b with len := n }).blocks b).off = (h.blocks b).off := by
    intro h1 w1 f1 hc ho
    obtain ⟨a, f⟩ := setBlk_wf w1 hb n (h1.blocks b).off hc
    refine ⟨a, f1.trans f, ?_, ?_⟩
    · simp [Heap.setBlk]
    · simp [Heap.setBlk, ho]
  split
  · obtain ⟨a, f, _, hc, _, ho⟩ := reserve_spec w hb n
    exact key _ a f hc ho
  · exact key _ w (Frame.refl _ _ _) (by omega) rfl

theorem alloc_spec {h : Heap} {L : List Nat} (w : WF h L) : WF h.alloc.2 (h.alloc.1 :: L) ∧ Frame h h.alloc.2 L h.alloc.1 ∧ h.alloc.1 ∉ L ∧
    (h.alloc.2.blocks h.alloc.1).len = 0 ∧ (h.alloc.2.blocks h.alloc.1).off = 0 := by
  have hn : h.nextB ∉ L := fun hm => Nat.lt_irrefl _ (w.blk _ hm)
  have eb : ∀ j ∈ L, h.alloc.2.blocks j = h.blocks j := by
    intro j hj
    simp only [Heap.alloc]
    rw [if_neg (by rintro rfl; exact hn hj)]
  have e0 : h.alloc.2.blocks h.nextB = ⟨h.nextA, 0, 0, 0⟩ := by simp [Heap.alloc]
  refine ⟨⟨List.nodup_cons.2 ⟨hn, w.nodup⟩, ?_, ?_, ?_, ?_⟩, ?_, hn, ?_, ?_⟩
  · intro j hj
    rcases List.mem_cons.1 hj with rfl | hj
    · exact Nat.lt_succ_self _
    · exact Nat.lt_succ_of_lt (w.blk j hj)
  · intro j hj
    rcases List.mem_cons.1 hj with rfl | hj
    · show (h.alloc.2.blocks h.nextB).arr < h.nextA + 1
      rw [e0]; exact Nat.lt_succ_self _
    · rw [eb j hj]; exact Nat.lt_succ_of_lt (w.arr j hj)
  · intro j hj
    rcases List.mem_cons.1 hj with rfl | hj
    · show (h.alloc.2.blocks h.nextB).len ≤ (h.alloc.2.blocks h.nextB).cap
      rw [e0]
    · rw [eb j hj]; exact w.len j hj
  · intro j hj k hk hne
    rcases List.mem_cons.1 hj with rfl | hj <;> rcases List.mem_cons.1 hk with rfl | hk
    · exact absurd rfl hne
    · rw [eb k hk, show h.alloc.1 = h.nextB from rfl, e0]; exact (Nat.ne_of_lt (w.arr k hk)).symm
    · rw [eb j hj, show h.alloc.1 = h.nextB from rfl, e0]; exact Nat.ne_of_lt (w.arr j hj)
    · rw [eb j hj, eb k hk]; exact w.apart j hj k hk hne
  · intro j hj _
    exact ⟨eb j hj, data_congr (eb j hj) rfl⟩
  · show (h.alloc.2.blocks h.nextB).len = 0
    rw [e0]
  · show (h.alloc.2.blocks h.nextB).off = 0
    rw [e0]

/-- a new block: not one of those in use, empty; the others are untouched -/
theorem newBlock_spec {h : Heap} {U free : List Nat} (w : WF h (U ++ free)) :
    ∃ b h' free', newBlock h free = (b, h', free') ∧ WF h' (b :: U ++ free') ∧ Frame h h' U b ∧ b ∉ U ∧ h'.data b = [] := by
  cases free with
  | nil =>
    rw [List.append_nil] at w
    obtain ⟨a, f, hn, hl, _⟩ := alloc_spec w
    refine ⟨h.alloc.1, h.alloc.2, [], rfl, by rwa [List.append_nil], f, hn, ?_⟩
    rw [← List.length_eq_zero_iff, data_length, hl]
  | cons b r =>
    obtain ⟨a, f, hl, _⟩ := resize_spec w (b := b) (by simp) 0
    have hp : (U ++ b :: r).Perm (b :: U ++ r) := List.perm_middle
    refine ⟨b, h.resize b 0, r, rfl, a.perm hp, fun j hj hn => f j (by simp [hj]) hn, ?_, ?_⟩
    · exact fun hb => (List.nodup_append.1 w.nodup).2.2 b hb b (by simp) rfl
    · rw [← List.length_eq_zero_iff, data_length, hl]

theorem data_setBlk_len (h : Heap) (b n : Nat) (hn : n ≤ (h.blocks b).len) : (h.setBlk b { h.blocks b with len := n }).data b = (h.data b).take n := by
  unfold Heap.data
  simp only [Heap.setBlk, if_true]
  rw [slice_take _ _ _ _ hn]

/-- `splitBlock` -/
theorem splitBlock_spec {h : Heap} {U free : List Nat} {b : Nat} (w : WF h (b :: U ++ free)) (n : Nat) :
    ∃ tail h' free', splitBlock h free b n = (tail, h', free') ∧ WF h' (b :: (tail.toList ++ U) ++ free') ∧ Frame h h' U b ∧
      h'.data b = (h.data b).take n ∧ tailData h' tail = (h.data b).drop n := by
  unfold splitBlock
  have hdl := data_length h b
  split
  · rename_i hc
    exact ⟨none, h, free, rfl, w, Frame.refl _ _ _, (List.take_of_length_le (by omega)).symm, (List.drop_of_length_le (by omega)).symm⟩
  rename_i hc
  obtain ⟨bb, h1, f1, e1, w1, fr1, hnew, _⟩ := newBlock_spec (U := b :: U) (free := free) w
  obtain ⟨w2, fr2, hl2, _⟩ := resize_spec w1 (b := bb) (by simp) ((h.data b).drop n).length
  rw [e1]
  simp only
  generalize hh2 : h1.resize bb ((h.data b).drop n).length = h2 at w2 fr2 hl2
  have hcap2 := w2.len bb (by simp)
  obtain ⟨w3, fr3⟩ := store_wf w2 (b := bb) (by simp) 0 ((h.data b).drop n) (h2.blocks bb).len (h2.blocks bb).off hcap2
  have es : ((h2.store (h2.blocks bb).arr 0 ((h.data b).drop n)).setBlk bb { h2.blocks bb with len := (h2.blocks bb).len, off := (h2.blocks bb).off }) =
      h2.store (h2.blocks bb).arr 0 ((h.data b).drop n) := by
    unfold Heap.setBlk
    congr 1
    funext j
    split
    · rename_i hj; rw [hj]
    · rfl
  rw [es] at w3 fr3
  have d3 : (h2.store (h2.blocks bb).arr 0 ((h.data b).drop n)).data bb = (h.data b).drop n := by
    have := slice_store h2 (h2.blocks bb).arr 0 ((h.data b).drop n)
    rw [← hl2] at this
    exact this
  generalize hh3 : h2.store (h2.blocks bb).arr 0 ((h.data b).drop n) = h3 at w3 fr3 d3
  have hbb : b ≠ bb := fun e => hnew (by simp [e])
  have fb : h3.blocks b = h.blocks b ∧ h3.data b = h.data b := by
    have a1 := fr1 b (by simp) hbb
    have a2 := fr2 b (by simp) hbb
    have a3 := fr3 b (by simp) hbb
    exact ⟨a3.1.trans (a2.1.trans a1.1), a3.2.trans (a2.2.trans a1.2)⟩
  obtain ⟨w4, fr4⟩ := setBlk_wf w3 (b := b) (by simp) n (h3.blocks b).off (by rw [fb.1]; have := w.len b (by simp); omega)
  refine ⟨some bb, _, f1, rfl, w4.perm ?_, ?_, ?_, ?_⟩
  · simp only [Option.toList_some, List.cons_append, List.nil_append]
    exact List.Perm.swap _ _ _
  · intro j hj hn
    have hjb : j ≠ bb := fun e => hnew (by simp [← e, hj])
    have a1 := fr1 j (by simp [hj]) hjb
    have a2 := fr2 j (by simp [hj]) hjb
    have a3 := fr3 j (by simp [hj]) hjb
    have a4 := fr4 j (by simp [hj]) hn
    exact ⟨a4.1.trans (a3.1.trans (a2.1.trans a1.1)), a4.2.trans (a3.2.trans (a2.2.trans a1.2))⟩
  · rw [← fb.2]
    exact data_setBlk_len h3 b n (by rw [fb.1]; omega)
  · exact (fr4 bb (by simp) (Ne.symm hbb)).2.trans d3

/-- storing at the end of a block -/
theorem append_spec {h : Heap} {L : List Nat} (w : WF h L) {b : Nat} (hb : b ∈ L) (d : Bytes) (hl : (h.blocks b).len + d.length ≤ (h.blocks b).cap) :
    let h' := (h.store (h.blocks b).arr (h.blocks b).len d).setBlk b { h.blocks b with len := (h.blocks b).len + d.length }
    WF h' L ∧ Frame h h' L b ∧ h'.data b = h.data b ++ d ∧ (h'.blocks b).cap = (h.blocks b).cap ∧ (h'.blocks b).len = (h.blocks b).len + d.length := by
  intro h'
  obtain ⟨w1, f1⟩ := store_wf w hb (h.blocks b).len d ((h.blocks b).len + d.length) (h.blocks b).off hl
  refine ⟨w1, f1, ?_, ?_, ?_⟩
  · show slice _ 0 _ = _
    simp only [h', Heap.setBlk, if_true]
    rw [slice_append, store_before _ _ _ _ _ (Nat.le_refl _), Nat.zero_add, slice_store]
    rfl
  · simp [h', Heap.setBlk]
  · simp [h', Heap.setBlk]

/-- the block after decryption in place -/
theorem decrypted_spec {h : Heap} {L : List Nat} (w : WF h L) {b : Nat} (hb : b ∈ L) (off : Nat) (d : Bytes) :
    WF (h.decrypted b off d) L ∧ Frame h (h.decrypted b off d) L b ∧ (h.decrypted b off d).unread b = d := by
  obtain ⟨w0, f0, l0, _⟩ := resize_spec w hb (off + d.length)
  unfold Heap.decrypted
  simp only
  generalize h.resize b (off + d.length) = h1 at w0 f0 l0
  obtain ⟨w1, f1⟩ := store_wf w0 hb off d (h1.blocks b).len off (w0.len b hb)
  refine ⟨w1, f0.trans f1, ?_⟩
  unfold Heap.unread Heap.data
  simp only [Heap.setBlk, if_true]
  rw [l0, slice_drop _ _ _ _ (by omega), Nat.zero_add, show off + d.length - off = d.length by omega, slice_store]

/-! ### the transport -/

theorem read_spec (t : Net) (room : Nat) : ∃ got err t', t.read room = (got, err, t') ∧ t.remaining = got ++ t'.remaining ∧ got.length ≤ room ∧ t'.final = t.final ∧
    (err = some .final → t'.remaining = []) ∧
    (err = none → 0 < room → t'.script.length < t.script.length ∨ (t.script = [] ∧ t'.script = [] ∧ t.remaining ≠ [] ∧ (t'.remaining = [] ∨ got.length = room))) := by
  unfold Net.read
  split
  · split
    · rename_i hs hr
      exact ⟨[], _, t, rfl, rfl, by simp, rfl, fun _ => hr, fun h => by simp at h⟩
    · rename_i hs hr
      refine ⟨_, _, _, rfl, (List.take_append_drop _ _).symm, by simp, rfl, fun h => by simp at h, fun _ _ => Or.inr ⟨hs, hs, hr, ?_⟩⟩
      rcases Nat.lt_or_ge t.remaining.length room with h | h
      · exact Or.inl (List.drop_of_length_le (by omega))
      · exact Or.inr (by simp; omega)
  · rename_i m s hs
    refine ⟨_, _, _, rfl, (List.take_append_drop _ _).symm, by simp, rfl, ?_, ?_⟩
    · intro h
      cases hm : m.err with
      | some e => rw [hm] at h; simp at h
      | none =>
        rw [hm] at h
        simp only at h
        split at h
        · rename_i hc; exact hc.2
        · cases h
    · intro _ _
      rw [hs]
      exact Or.inl (by simp)

/-- the loop of `readFromUntil` returns; it moves bytes from the transport to the end of the block, as many as wanted or else until an error -/
theorem fillLoop_spec {L : List Nat} {b : Nat} (hb : b ∈ L) (n : Nat) : ∀ (k : Nat) (h : Heap) (t : Net), WF h L → n ≤ (h.blocks b).cap → (h.blocks b).len < n →
    (t.script.length + 2 ≤ k ∨ (t.script = [] ∧ t.remaining = [] ∧ 1 ≤ k)) →
    ∃ err h' t' got, fillLoop k h t b n = .ok (err, h', t') ∧ WF h' L ∧ Frame h h' L b ∧ h'.data b = h.data b ++ got ∧ t.remaining = got ++ t'.remaining ∧
      t'.final = t.final ∧ (err = none → n ≤ (h'.data b).length) ∧ (err ≠ none → (h'.data b).length < n) ∧ (err = some .final → t'.remaining = []) := by
  intro k
  induction k with
  | zero => intro h t _ _ _ hk; omega
  | succ k ih =>
    intro h t w hc hl hk
    obtain ⟨got, err, t', e, hr, hg, hf, hfin, hnone⟩ := read_spec t ((h.blocks b).cap - (h.blocks b).len)
    obtain ⟨w1, f1, d1, c1, l1⟩ := append_spec w hb got (by omega)
    rw [fillLoop]
    simp only [e]
    generalize ((h.store (h.blocks b).arr (h.blocks b).len got).setBlk b { h.blocks b with len := (h.blocks b).len + got.length }) = h1 at w1 f1 d1 c1 l1
    have hdl := data_length h1 b
    split
    · rename_i hn
      exact ⟨none, h1, t', got, rfl, w1, f1, d1, hr, hf, fun _ => by omega, fun h => absurd rfl h, fun h => by cases h⟩
    · rename_i hn
      cases err with
      | some x => exact ⟨some x, h1, t', got, rfl, w1, f1, d1, hr, hf, (by simp), fun _ => by omega, hfin⟩
      | none =>
        have hk' : t'.script.length + 2 ≤ k ∨ (t'.script = [] ∧ t'.remaining = [] ∧ 1 ≤ k) := by
          rcases hnone rfl (by omega) with hlt | ⟨hs, hs', hne, hx⟩
          · rcases hk with hk | ⟨hk, _, _⟩
            · exact Or.inl (by omega)
            · rw [hk] at hlt; simp at hlt
          · rcases hx with hx | hx
            · rcases hk with hk | ⟨_, hk, _⟩
              · exact Or.inr ⟨hs', hx, by omega⟩
              · exact absurd hk hne
            · omega
        obtain ⟨err, h', t'', got', e2, w2, f2, d2, hr2, hf2, a, b', c⟩ := ih h1 t' w1 (by omega) (by omega) hk'
        refine ⟨err, h', t'', got ++ got', e2, w2, f1.trans f2, by rw [d2, d1, List.append_assoc], by rw [hr, hr2, List.append_assoc], hf2.trans hf, a, b', c⟩

theorem readFromUntil_spec {L : List Nat} {b : Nat} (hb : b ∈ L) (n : Nat) (h : Heap) (t : Net) (w : WF h L) :
    ∃ err h' t' got, readFromUntil h t b n = .ok (err, h', t') ∧ WF h' L ∧ Frame h h' L b ∧ h'.data b = h.data b ++ got ∧ t.remaining = got ++ t'.remaining ∧
      t'.final = t.final ∧ (err = none → n ≤ (h'.data b).length) ∧ (err ≠ none → (h'.data b).length < n) ∧ (err = some .final → t'.remaining = []) := by
  unfold readFromUntil
  split
  · rename_i hn
    exact ⟨none, h, t, [], rfl, w, Frame.refl _ _ _, by simp, by simp, rfl, fun _ => by rw [data_length]; exact hn, fun h => absurd rfl h, fun h => by cases h⟩
  · rename_i hn
    obtain ⟨w1, f1, d1, c1, l1, _⟩ := reserve_spec w hb n
    obtain ⟨err, h', t', got, e, w2, f2, d2, r⟩ := fillLoop_spec hb n (t.script.length + 2) (h.reserve b n) t w1 c1 (by omega) (Or.inl (by omega))
    exact ⟨err, h', t', got, e, w2, f1.trans f2, by rw [d2, d1], r⟩

/-! ### the refinement -/

/-- the connection of `Verif/Tls/Conn.lean` that these buffers stand for: one stream of bytes, one list of application data -/
def BConn.abs (s : BConn) : Conn := plug (s.rawBytes ++ s.net.remaining) s.net.final (s.input.map s.h.unread) s.c

/-- no block is used twice, no array belongs to two blocks -/
def BConn.Good (s : BConn) : Prop := WF s.h (s.raw.toList ++ s.input.toList ++ s.free)

theorem getRaw_spec (s : BConn) (g : s.Good) : ∃ b h' free', s.getRaw = (b, { s with h := h', free := free', raw := some b }) ∧
    WF h' (b :: s.input.toList ++ free') ∧ s.input.map h'.unread = s.input.map s.h.unread ∧ h'.data b = s.rawBytes := by
  unfold BConn.getRaw BConn.rawBytes
  unfold BConn.Good at g
  cases hr : s.raw with
  | some b =>
    rw [hr] at g
    refine ⟨b, s.h, s.free, ?_, g, rfl, rfl⟩
    simp only
    congr 1
    cases s
    simp_all
  | none =>
    rw [hr] at g
    obtain ⟨b, h', free', e, w, f, hn, hd⟩ := newBlock_spec (U := s.input.toList) (free := s.free) g
    refine ⟨b, h', free', ?_, w, ?_, hd⟩
    · simp only [e]
    · cases hi : s.input with
      | none => rfl
      | some j =>
        simp only [Option.map_some]
        congr 1
        rw [hi] at f hn
        exact f.unread (by simp) (by rintro rfl; exact hn (by simp))

/-- what the block version does, against what the stream version does -/
def Matches (s : BConn) (r : Res (BStep × BConn)) (a : Res (Step × Conn)) : Prop :=
  match r with
  | .ok (.temporary _, s') => s'.Good ∧ s'.abs = s.abs
  | .ok (.again, s') => s'.Good ∧ a = .ok (.again, s'.abs)
  | .ok (.done e, s') => s'.Good ∧ (a = .ok (.done e, s'.abs) ∨ (e ≠ none ∧ a = .ok (.done e, { s'.abs with stream := [] })))
  | .err x => a = .err x
  | .panic => a = .panic

theorem matches_fail (s s0 : BConn) (hg : s.Good) (r : Res (Option String × Conn)) (st : Bytes) (se : String) (i : Option Bytes)
    (h1 : st = s.rawBytes ++ s.net.remaining) (h2 : se = s.net.final) (h3 : i = s.input.map s.h.unread) :
    Matches s0 (asBDone s r) (asDone (mapC (plug st se i) r)) := by
  subst h1 h2 h3
  rcases r with ⟨e, c⟩ | x | _
  · exact ⟨hg, Or.inl rfl⟩
  · rfl
  · rfl

theorem WF.of_nodup {h : Heap} {L L' : List Nat} (w : WF h L) (hs : ∀ b ∈ L', b ∈ L) (hn : L'.Nodup) : WF h L' :=
  ⟨hn, fun b hb => w.blk b (hs b hb), fun b hb => w.arr b (hs b hb), fun b hb => w.len b (hs b hb), fun b hb b' hb' => w.apart b (hs b hb) b' (hs b' hb')⟩

theorem processRecord_app (c : Conn) (data : Bytes) (hl : data.length ≤ 16384) :
    c.processRecord typAppData typAppData data = .ok (.done c.inp.err, { (if data.length > 0 then { c with warnCount := 0 } else c) with input := some data }) := by
  unfold Conn.processRecord
  by_cases hp : data.length > 0
  · simp [Nat.not_lt.2 hl, hp, typAppData, typAlert, typCCS]
  · simp [Nat.not_lt.2 hl, hp, typAppData, typAlert, typCCS]

/-- tls/conn.go:656-735 -/
theorem process_matches (s s0 : BConn) (want typ : Byte) (b : Nat) (w : WF s.h (b :: (s.raw.toList ++ s.input.toList) ++ s.free)) :
    Matches s0 (s.process want typ b) (s.abs.processRecord want typ (s.h.unread b)) := by
  unfold BConn.process
  simp only
  split
  · rename_i hc
    obtain ⟨hl, ht, hw⟩ := hc
    have e : s.abs.processRecord want typ (s.h.unread b) =
        .ok (.done s.c.inp.err, { (if (s.h.unread b).length > 0 then { s.abs with warnCount := 0 } else s.abs) with input := some (s.h.unread b) }) := by
      subst ht
      subst hw
      exact processRecord_app s.abs _ hl
    rw [e]
    refine ⟨?_, Or.inl ?_⟩
    · refine w.of_nodup ?_ ?_
      · intro x hx
        simp only [Option.toList_some, List.mem_append, List.mem_cons, List.not_mem_nil, or_false] at hx ⊢
        rcases hx with (hx | hx) | hx
        · exact Or.inl (Or.inr (Or.inl hx))
        · exact Or.inl (Or.inl hx)
        · exact Or.inr hx
      · have hn := w.nodup
        simp only [Option.toList_some, List.append_assoc]
        have hp : (b :: (s.raw.toList ++ s.input.toList) ++ s.free).Perm (s.input.toList ++ (s.raw.toList ++ ([b] ++ s.free))) := by
          have h1 : (b :: (s.raw.toList ++ s.input.toList) ++ s.free) = [b] ++ (s.raw.toList ++ (s.input.toList ++ s.free)) := by simp
          rw [h1]
          refine (List.perm_append_comm_assoc _ _ _).trans ?_
          refine (List.Perm.append_left _ (List.perm_append_comm_assoc _ _ _)).trans ?_
          exact List.perm_append_comm_assoc _ _ _
        exact (List.nodup_append.1 (hp.nodup_iff.1 hn)).2.1
    · congr 2
      split <;> rfl
  · rename_i hno
    have hp := processRecord_plug (s.rawBytes ++ s.net.remaining) s.net.final (s.input.map s.h.unread) s.c want typ (s.h.unread b) hno
    rw [show s.abs = plug (s.rawBytes ++ s.net.remaining) s.net.final (s.input.map s.h.unread) s.c from rfl, hp]
    generalize hf : (if (s.h.unread b).length ≤ 16384 ∧ typ = typHandshake ∧ typ ≠ want ∧ ¬ (s.c.isClient = true ∧ s.c.renegotiation = true) then s.free else b :: s.free) = free
    have hgood : ∀ c, ({ s with c := c, free := free } : BConn).Good := by
      intro c
      unfold BConn.Good
      simp only
      rw [← hf]
      split
      · exact w.sub (by simp)
      · refine w.perm ?_
        simp only [List.cons_append]
        exact List.perm_middle.symm
    rcases s.c.processRecord want typ (s.h.unread b) with ⟨r, c⟩ | x | _
    · cases r with
      | done e => exact ⟨hgood c, Or.inl rfl⟩
      | again => exact ⟨hgood c, rfl⟩
    · rfl
    · rfl

/-- tls/conn.go:649-735, from the record in the block on -/
theorem openRecord_matches (s s0 : BConn) (want typ : Byte) (b n : Nat) (hr : s.raw = some b) (w : WF s.h (b :: s.input.toList ++ s.free)) (hn : n ≤ (s.h.data b).length) :
    Matches s0 (s.openRecord want typ b n)
      (match s.c.inp.decrypt ((s.abs.stream).take n) with
        | .ok (none, inp') => asDone (({ ({ s.abs with stream := s.abs.stream.drop n } : Conn) with inp := inp' } : Conn).failAlert 20)
        | .ok (some data, inp') => ({ ({ s.abs with stream := s.abs.stream.drop n } : Conn) with inp := inp' } : Conn).processRecord want typ data
        | .err x => .err x
        | .panic => .panic) := by
  have hst : s.abs.stream = s.h.data b ++ s.net.remaining := by
    show s.rawBytes ++ _ = _
    unfold BConn.rawBytes
    rw [hr]
    rfl
  rw [hst, List.take_append_of_le_length hn, List.drop_append_of_le_length hn]
  unfold BConn.openRecord
  obtain ⟨tail, h', free', e, w1, f1, d1, d2⟩ := splitBlock_spec w n
  have hin : s.input.map h'.unread = s.input.map s.h.unread := by
    cases hi : s.input with
    | none => rfl
    | some j =>
      rw [hi] at f1 w
      simp only [Option.map_some]
      congr 1
      refine f1.unread (by simp) ?_
      rintro rfl
      have := w.nodup
      simp at this
  rw [e]
  simp only
  rw [d1]
  have hraw : ∀ (c : Conn) (f : List Nat) (h'' : Heap), tailData h'' tail = (s.h.data b).drop n →
      ({ s with c := c, h := h'', raw := tail, free := f } : BConn).rawBytes = (s.h.data b).drop n := by
    intro c f h'' hx
    unfold BConn.rawBytes
    exact hx
  rcases s.c.inp.decrypt ((s.h.data b).take n) with ⟨data, inp'⟩ | x | _
  · cases data with
    | none =>
      simp only
      have := failAlert_plug ((s.h.data b).drop n ++ s.net.remaining) s.net.final (s.input.map s.h.unread) { s.c with inp := inp' } 20
      rw [show ({ ({ s.abs with stream := (s.h.data b).drop n ++ s.net.remaining } : Conn) with inp := inp' } : Conn) =
        plug ((s.h.data b).drop n ++ s.net.remaining) s.net.final (s.input.map s.h.unread) { s.c with inp := inp' } from rfl, this]
      refine matches_fail _ _ ?_ _ _ _ _ ?_ rfl hin.symm
      · unfold BConn.Good
        simp only
        refine w1.perm ?_
        simp only [List.cons_append]
        exact List.perm_middle.symm
      · rw [hraw s.c (b :: free') h' d2]
    | some data =>
      simp only
      obtain ⟨w2, f2, d3⟩ := decrypted_spec w1 (b := b) (by simp) (5 + ivLen s.c.inp) data
      have key := process_matches { s with c := { s.c with inp := inp' }, h := h'.decrypted b (5 + ivLen s.c.inp) data, raw := tail, free := free' } s0 want typ b w2
      simp only [d3] at key
      have hnt : ∀ j ∈ (tail.toList ++ s.input.toList), j ≠ b := by
        rintro j hj rfl
        have := w1.nodup
        rw [List.cons_append, List.nodup_cons] at this
        exact this.1 (List.mem_append_left _ hj)
      have habs : (({ s with c := { s.c with inp := inp' }, h := h'.decrypted b (5 + ivLen s.c.inp) data, raw := tail, free := free' } : BConn).abs) =
          ({ ({ s.abs with stream := (s.h.data b).drop n ++ s.net.remaining } : Conn) with inp := inp' } : Conn) := by
        unfold BConn.abs
        rw [hraw { s.c with inp := inp' } free' (h'.decrypted b (5 + ivLen s.c.inp) data) (by
          rw [← d2]
          cases htl : tail with
          | none => rfl
          | some t =>
            rw [htl] at hnt w1 f2
            exact (f2 t (by simp) (hnt t (by simp))).2)]
        have : s.input.map (h'.decrypted b (5 + ivLen s.c.inp) data).unread = s.input.map s.h.unread := by
          rw [← hin]
          cases hi : s.input with
          | none => rfl
          | some j =>
            rw [hi] at hnt w1 f2
            simp only [Option.map_some]
            congr 1
            exact f2.unread (by simp) (hnt j (by simp))
        simp only [this]
        rfl
      rw [habs] at key
      exact key
  · rfl
  · rfl

/-- `Conn.readOnce` after the header -/
def afterHdr (c : Conn) (want typ : Byte) (vers : Version) (n : Nat) : Res (Step × Conn) :=
  if want = typHandshake ∧ typ = 0x80 then asDone (c.failMsg 70 "unsupported SSLv2 handshake received")
  else if c.haveVers = true ∧ vers ≠ c.vers then asDone (c.failMsg 70 "received record with wrong version")
  else if n > 16384 + 2048 then asDone (c.failMsg 22 "oversized record received")
  else if c.haveVers = false ∧ ((typ ≠ typAlert ∧ typ ≠ want) ∨ 0x1000 ≤ vers.toNat) then
    asDone (c.failMsg 10 "first record does not look like a TLS handshake")
  else if c.stream.length < 5 + n then
    .ok (.done (some (if c.streamErr = "EOF" then "unexpected EOF" else c.streamErr)),
      { c with stream := [] }.setInErr (some (if c.streamErr = "EOF" then "unexpected EOF" else c.streamErr)))
  else
    match c.inp.decrypt (c.stream.take (5 + n)) with
    | .ok (none, inp') => asDone (({ ({ c with stream := c.stream.drop (5 + n) } : Conn) with inp := inp' } : Conn).failAlert 20)
    | .ok (some data, inp') => ({ ({ c with stream := c.stream.drop (5 + n) } : Conn) with inp := inp' } : Conn).processRecord want typ data
    | .err x => .err x
    | .panic => .panic

theorem readOnce_afterHdr (c : Conn) (want : Byte) (h : ¬ c.stream.length < 5) : c.readOnce want =
    afterHdr c want (c.stream.getD 0 0) (((c.stream.getD 1 0).zeroExtend 16 <<< 8) ||| (c.stream.getD 2 0).zeroExtend 16) (beNat ((c.stream.drop 3).take 2)) := by
  unfold Conn.readOnce
  rw [if_neg h]
  rfl

theorem readOnce_matches (s : BConn) (want : Byte) (g : s.Good) : Matches s (s.readOnce want) (s.abs.readOnce want) := by
  unfold BConn.readOnce
  obtain ⟨b, h0, free0, e0, w0, hin0, hd0⟩ := getRaw_spec s g
  rw [e0]
  simp only
  -- the header
  obtain ⟨err1, h1, t1, got1, e1, w1, f1, d1, r1, fin1, en1, es1, ef1⟩ := readFromUntil_spec (b := b) (by simp) 5 h0 s.net w0
  have frIn : ∀ {h h' : Heap} {free : List Nat}, WF h (b :: s.input.toList ++ free) → Frame h h' (b :: s.input.toList ++ free) b → s.input.map h'.unread = s.input.map h.unread := by
    intro h h' free w f
    cases hi : s.input with
    | none => rfl
    | some j =>
      rw [hi] at f w
      simp only [Option.map_some]
      congr 1
      refine f.unread (by simp) ?_
      rintro rfl
      have := w.nodup
      simp at this
  have hin1 := (frIn w0 f1).trans hin0
  have hst1 : s.abs.stream = h1.data b ++ t1.remaining := by
    show s.rawBytes ++ s.net.remaining = _
    rw [d1, hd0, r1, List.append_assoc]
  -- the abstract connection in terms of the state after the header
  have habs : ∀ (h : Heap) (t : Net) (c : Conn), h.data b ++ t.remaining = s.abs.stream → t.final = s.net.final → s.input.map h.unread = s.input.map s.h.unread →
      ({ s with c := c, h := h, free := free0, raw := some b, net := t } : BConn).abs = plug s.abs.stream s.net.final (s.input.map s.h.unread) c := by
    intro h t c a1 a2 a3
    show plug (h.data b ++ t.remaining) t.final (s.input.map h.unread) c = _
    rw [a1, a2, a3]
  have hgood : ∀ (h : Heap) (t : Net) (c : Conn), WF h (b :: s.input.toList ++ free0) → ({ s with c := c, h := h, free := free0, raw := some b, net := t } : BConn).Good := fun h t c w => w
  rw [e1]
  cases err1 with
  | some x =>
    simp only
    cases x with
    | temporary e =>
      refine ⟨hgood _ _ _ w1, ?_⟩
      exact habs h1 t1 s.c hst1.symm fin1 hin1
    | final =>
      unfold BConn.netFails
      simp only
      have hl := es1 (by simp)
      have hrem := ef1 rfl
      have : s.abs.readOnce want = .ok (.done (some s.net.final), { s.abs with stream := [] }.setInErr (some s.net.final)) := by
        unfold Conn.readOnce
        rw [if_pos (by rw [hst1, hrem, List.append_nil]; exact hl)]
        rfl
      rw [this, fin1]
      have he : (if s.net.final = "EOF" then "EOF" else s.net.final) = s.net.final := by split <;> simp_all
      rw [he]
      refine ⟨hgood _ _ _ w1, Or.inr ⟨by simp, ?_⟩⟩
      rw [habs h1 t1 (s.c.setInErr (some s.net.final)) hst1.symm fin1 hin1]
      rfl
  | none =>
    have hl := en1 rfl
    simp only
    have hg : ∀ i < 5, s.abs.stream.getD i 0 = (h1.data b).getD i 0 := by
      intro i hi
      rw [hst1]
      simp only [List.getD_eq_getElem?_getD]
      rw [List.getElem?_append_left (by omega)]
    have hn : (s.abs.stream.drop 3).take 2 = ((h1.data b).drop 3).take 2 := by
      rw [hst1, List.drop_append_of_le_length (by omega), List.take_append_of_le_length (by simp; omega)]
    rw [readOnce_afterHdr _ _ (by rw [hst1]; simp; omega), hg 0 (by omega), hg 1 (by omega), hg 2 (by omega), hn]
    generalize (h1.data b).getD 0 0 = typ
    generalize (BitVec.zeroExtend 16 ((h1.data b).getD 1 0) <<< 8 ||| BitVec.zeroExtend 16 ((h1.data b).getD 2 0)) = vers
    generalize beNat (((h1.data b).drop 3).take 2) = n
    have hfail : ∀ a m, Matches s (asBDone { s with h := h1, free := free0, raw := some b, net := t1 } (s.c.failMsg a m)) (asDone (s.abs.failMsg a m)) := by
      intro a m
      rw [show s.abs = plug (s.rawBytes ++ s.net.remaining) s.net.final (s.input.map s.h.unread) s.c from rfl, failMsg_plug]
      exact matches_fail _ _ (hgood _ _ s.c w1) _ _ _ _ (by rw [show s.rawBytes ++ s.net.remaining = s.abs.stream from rfl, hst1]; rfl) fin1.symm hin1.symm
    unfold afterHdr
    rw [show s.abs.haveVers = s.c.haveVers from rfl, show s.abs.vers = s.c.vers from rfl]
    by_cases q1 : want = typHandshake ∧ typ = 0x80
    · rw [if_pos q1, if_pos q1]
      exact hfail _ _
    rw [if_neg q1, if_neg q1]
    by_cases q2 : s.c.haveVers = true ∧ vers ≠ s.c.vers
    · rw [if_pos q2, if_pos q2]
      exact hfail _ _
    rw [if_neg q2, if_neg q2]
    by_cases q3 : n > 16384 + 2048
    · rw [if_pos q3, if_pos q3]
      exact hfail _ _
    rw [if_neg q3, if_neg q3]
    by_cases q4 : s.c.haveVers = false ∧ ((typ ≠ typAlert ∧ typ ≠ want) ∨ 0x1000 ≤ vers.toNat)
    · rw [if_pos q4, if_pos q4]
      exact hfail _ _
    rw [if_neg q4, if_neg q4]
    -- the body
    obtain ⟨err2, h2, t2, got2, e2, w2, f2, d2, r2, fin2, en2, es2, ef2⟩ := readFromUntil_spec (b := b) (by simp) (5 + n) h1 t1 w1
    have hin2 := (frIn w1 f2).trans hin1
    have hst2 : s.abs.stream = h2.data b ++ t2.remaining := by
      rw [hst1, d2, r2, List.append_assoc]
    rw [e2]
    cases err2 with
    | some x =>
      simp only
      cases x with
      | temporary e =>
        refine ⟨hgood _ _ _ w2, ?_⟩
        exact habs h2 t2 s.c hst2.symm (fin2.trans fin1) hin2
      | final =>
        unfold BConn.netFails
        simp only
        have hl2 := es2 (by simp)
        have hrem := ef2 rfl
        rw [if_pos (show s.abs.stream.length < 5 + n by rw [hst2, hrem, List.append_nil]; exact hl2), fin2, fin1]
        refine ⟨hgood _ _ _ w2, Or.inr ⟨by simp, ?_⟩⟩
        rw [habs h2 t2 _ hst2.symm (fin2.trans fin1) hin2]
        rfl
    | none =>
      have hl2 := en2 rfl
      simp only
      rw [if_neg (show ¬ s.abs.stream.length < 5 + n by rw [hst2]; simp; omega)]
      have key := openRecord_matches { s with h := h2, free := free0, raw := some b, net := t2 } s want typ b (5 + n) rfl w2 hl2
      rw [habs h2 t2 s.c hst2.symm (fin2.trans fin1) hin2] at key
      exact key
end Verif.Tls.Blocks
