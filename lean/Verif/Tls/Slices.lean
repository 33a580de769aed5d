import Verif.Tls.Sizing
/-!
C144: no record and no handshake header a peer can send takes an index or a slice of the record layer out of range.

`Tls/Record.lean` and `Tls/Conn.lean` write Go's `s[a:b]`, `s[i]` with the total functions `take`, `drop`, `getD`. Here
tls/conn.go:207-448 is followed statement by statement with slice expressions that panic out of range, division by
zero that panics, block modes that panic on partial blocks, a short destination or a wrong IV length, and with the
fixed 13-byte `additionalData` and the stale bytes of a grown buffer; the theorems say that the result is the same.

Simplification: a slice may be extended up to its capacity in Go; here it panics beyond its length, which is stricter.
-/
namespace Verif.Tls
open Verif Verif.Std

/-! ### Go's slice expressions -/

/-- `s[:n]` -/
def goTo (s : Bytes) (n : Int) : Res Bytes := if 0 ≤ n ∧ n ≤ s.length then .ok (s.take n.toNat) else .panic
/-- `s[n:]` -/
def goFrom (s : Bytes) (n : Int) : Res Bytes := if 0 ≤ n ∧ n ≤ s.length then .ok (s.drop n.toNat) else .panic
/-- `s[a:b]` -/
def goRange (s : Bytes) (a b : Int) : Res Bytes :=
  if 0 ≤ a ∧ a ≤ b ∧ b ≤ s.length then .ok ((s.drop a.toNat).take (b - a).toNat) else .panic
/-- `s[i]` -/
def goAt (s : Bytes) (i : Int) : Res Byte := if 0 ≤ i ∧ i < s.length then .ok (s.getD i.toNat 0) else .panic
/-- `s[i] = v` -/
def goSet (s : Bytes) (i : Int) (v : Byte) : Res Bytes := if 0 ≤ i ∧ i < s.length then .ok (s.set i.toNat v) else .panic
/-- `a % b` of two lengths -/
def goMod (a b : Nat) : Res Nat := if b = 0 then .panic else .ok (a % b)
/-- tls/conn.go:457-463 `resize`: the bytes gained by growing are whatever the buffer held (`stale`) -/
def goResize (stale : Nat → Byte) (s : Bytes) (n : Int) : Res Bytes :=
  if 0 ≤ n then .ok (s.take n.toNat ++ (List.range (n.toNat - s.length)).map stale) else .panic
/-- `byte(n >> 8)` and `byte(n)` of an int -/
def hiByte (n : Int) : Byte := BitVec.ofInt 8 (n / 256)
def loByte (n : Int) : Byte := BitVec.ofInt 8 n

/-! ### the code, with checked slices -/

/-- tls/conn.go:227-233: the loop of `extractPadding` from `i` on, `k` rounds -/
def paddingLoopGo (payload : Bytes) (paddingLen : Byte) : Nat → Nat → Byte → Res Byte
  | 0, _, good => .ok good
  | k + 1, i, good => do
    let t : BitVec 64 := paddingLen.zeroExtend 64 - BitVec.ofNat 64 i
    let mask := maskOf t
    let b ← goAt payload ((payload.length : Int) - 1 - i)
    paddingLoopGo payload paddingLen k (i + 1) (good &&& ~~~ ((mask &&& paddingLen) ^^^ (mask &&& b)))

/-- tls/conn.go:207-244 `extractPadding` -/
def extractPaddingGo (payload : Bytes) : Res (Nat × Byte) :=
  if payload.length < 1 then .ok (0, 0)
  else do
    let paddingLen ← goAt payload ((payload.length : Int) - 1)
    let t : BitVec 64 := BitVec.ofNat 64 (payload.length - 1) - paddingLen.zeroExtend 64
    let good := maskOf t
    let toCheck := if 256 > payload.length then payload.length else 256
    let good ← paddingLoopGo payload paddingLen toCheck 0 good
    .ok (paddingLen.toNat + 1, foldBits good)

/-- tls/conn.go:246-260 `extractPaddingSSL30` -/
def extractPaddingSSL30Go (payload : Bytes) : Res (Nat × Byte) :=
  if payload.length < 1 then .ok (0, 0)
  else do
    let last ← goAt payload ((payload.length : Int) - 1)
    let paddingLen := last.toNat + 1
    if paddingLen > payload.length then .ok (0, 0) else .ok (paddingLen, 255)

/-- the 13 bytes of `hc.additionalData`, tls/conn.go:305-309, 420-423; `ad0` is what the array held before -/
def additionalGo (ad0 seq b : Bytes) (n : Int) : Res Bytes := do
  let ad := copyAt ad0 0 seq
  let h ← goTo b 3
  let ad := copyAt ad 8 h
  let ad ← goSet ad 11 (hiByte n)
  goSet ad 12 (loByte n)

/-- tls/cipher_suites.go:192-214: the index `4+i` into the 12-byte array `nonceMask` -/
def wrapGo (a : Aead) (nonce : Bytes) : Res Unit :=
  match a.wrap with
  | .fixed _ => .ok ()
  | .xored _ => if 4 + nonce.length ≤ 12 then .ok () else .panic

/-- `SetIV` of the standard library's CBC modes -/
def setIVGo (bs : Nat) (iv : Bytes) : Res Bytes := if iv.length ≠ bs then .panic else .ok iv

/-- tls/conn.go:326-329, 428-431: `if explicitIVLen > 0 { c.SetIV(payload[:explicitIVLen]) }` -/
def ivStepGo (bs e : Nat) (payload iv : Bytes) : Res Bytes :=
  if e > 0 then do
    let s ← goTo payload e
    setIVGo bs s
  else .ok iv

/-- tls/conn.go:328, 430: `if explicitIVLen > 0 { payload = payload[explicitIVLen:] }` -/
def skipIVGo (e : Nat) (payload : Bytes) : Res Bytes := if e > 0 then goFrom payload e else .ok payload

/-- tls/conn.go:331-335 -/
def padStepGo (v : Version) (p : Bytes) : Res (Nat × Byte) := if v = vSSL30 then extractPaddingSSL30Go p else extractPaddingGo p

/-- tls/conn.go:277-345: the decryption step; the record `b.data` as it is after `resize` goes along -/
def HalfConn.openPayloadGo (hc : HalfConn) (stale : Nat → Byte) (ad0 data : Bytes) :
    Res (Option (Opened × Bytes) × Option Cipher) := do
  let payload ← goFrom data 5
  match hc.cipher with
  | none => .ok (some (⟨payload, 0, 0, 255⟩, data), none)
  | some (.stream ks pos) =>
    let p := xorStream ks pos payload
    .ok (some (⟨p, 0, 0, 255⟩, data.take 5 ++ p), some (.stream ks (pos + payload.length)))
  | some (.aead a) => do
    let e := a.explicitNonceLen
    if payload.length < e then .ok (none, some (.aead a))
    else do
      let nonce ← goTo payload e
      let payload ← goFrom payload e
      let nonce := if nonce.length = 0 then hc.seq else nonce
      let n : Int := payload.length - a.raw.overhead
      let ad ← additionalGo ad0 hc.seq data n
      wrapGo a nonce
      match a.openW nonce payload ad with
      | (none, a') => .ok (none, some (.aead a'))
      | (some p, a') => do
        let data ← goResize stale (data.take (5 + e) ++ p) (5 + e + p.length)
        .ok (some (⟨p, e, 0, 255⟩, data), some (.aead a'))
  | some (.cbc bs dec f iv) => do
    let e := if explicitIVVersion hc.version then bs else 0
    let r ← goMod payload.length bs
    if r ≠ 0 ∨ payload.length < roundUp (e + hc.macSize + 1) bs then .ok (none, some (.cbc bs dec f iv))
    else do
      let iv' ← ivStepGo bs e payload iv
      let payload ← skipIVGo e payload
      let (p, iv'') ← cryptBlocks bs dec f iv' payload
      let pad ← padStepGo hc.version p
      .ok (some (⟨p, e, pad.1, pad.2⟩, data.take (5 + e) ++ p), some (.cbc bs dec f iv''))

/-- `subtle.ConstantTimeSelect(int(uint32(n)>>31), 0, n)`, tls/conn.go:356: an int, possibly negative -/
def selectGo (n : Int) : Int := if (BitVec.ofInt 32 n).msb then 0 else n

/-- tls/conn.go:348-369: check and strip the MAC; the result is the record `b.data` -/
def HalfConn.checkMacGo (hc : HalfConn) (stale : Nat → Byte) (p : Opened) (data : Bytes) : Res (Option Bytes) :=
  match hc.mac with
  | none => .ok (some data)
  | some m =>
    if p.payload.length < m.size then .ok none
    else do
      let n : Int := (p.payload.length : Int) - m.size - p.paddingLen
      let n := selectGo n
      let data ← goSet data 3 (hiByte n)
      let data ← goSet data 4 (loByte n)
      let remoteMAC ← goRange p.payload n (n + m.size)
      let header ← goTo data 5
      let body ← goTo p.payload n
      let _extra ← goFrom p.payload (n + m.size)
      let localMAC := m.mac hc.seq header body
      if localMAC ≠ remoteMAC ∨ p.paddingGood ≠ 255 then .ok none
      else do
        let data ← goResize stale data (5 + p.explicitIVLen + n)
        .ok (some data)

/-- tls/conn.go:275-372 `decrypt` and the caller's `b.data[b.off:]` (tls/conn.go:645-646) -/
def HalfConn.decryptGo (hc : HalfConn) (stale : Nat → Byte) (ad0 data : Bytes) : Res (Option Bytes × HalfConn) := do
  let (o, c) ← hc.openPayloadGo stale ad0 data
  match o with
  | none => .ok (none, { hc with cipher := c })
  | some (p, data) => do
    match ← ({ hc with cipher := c } : HalfConn).checkMacGo stale p data with
    | none => .ok (none, { hc with cipher := c })
    | some data => do
      let hc' ← ({ hc with cipher := c } : HalfConn).incSeq
      let d ← goFrom data (5 + p.explicitIVLen)
      .ok (some d, hc')

/-- tls/conn.go:385-387: `finalBlock[i] = byte(paddingLen - 1)` from `i` on, `k` rounds -/
def padLoopGo (v : Byte) : Nat → Nat → Bytes → Res Bytes
  | 0, _, fb => .ok fb
  | k + 1, i, fb => do
    let fb ← goSet fb i v
    padLoopGo v k (i + 1) fb

/-- tls/conn.go:379-389 `padToBlockSize` -/
def padToBlockSizeGo (payload : Bytes) (bs : Nat) : Res (Bytes × Bytes) := do
  let overrun ← goMod payload.length bs
  let paddingLen : Int := (bs : Int) - overrun
  let pre ← goTo payload ((payload.length : Int) - overrun)
  let tail ← goFrom payload ((payload.length : Int) - overrun)
  let fb := copyAt (List.replicate bs 0) 0 tail
  let fb ← padLoopGo (loByte (paddingLen - 1)) (bs - overrun) overrun fb
  .ok (pre, fb)

/-- `CryptBlocks(dst, src)`, `dst = b.data[off:]`: panics if `dst` is shorter than `src` -/
def cryptIntoGo (bs : Nat) (dec : Bool) (f : Bytes → Bytes) (iv : Bytes) (b : Bytes) (off : Int) (src : Bytes) : Res (Bytes × Bytes) := do
  let dst ← goFrom b off
  if dst.length < src.length then .panic
  else do
    let (c, iv') ← cryptBlocks bs dec f iv src
    .ok (copyAt b off.toNat c, iv')

/-- tls/conn.go:393-402: compute the MAC, grow the record, copy it in -/
def HalfConn.appendMacGo (hc : HalfConn) (stale : Nat → Byte) (b : Bytes) (e : Nat) : Res Bytes :=
  match hc.mac with
  | none => .ok b
  | some m => do
    let header ← goTo b 5
    let body ← goFrom b (5 + e)
    let mac := m.mac hc.seq header body
    let n := b.length
    let b ← goResize stale b (n + mac.length)
    let _ ← goFrom b n
    .ok (copyAt b n mac)

/-- tls/conn.go:404-440: the encryption step -/
def HalfConn.sealPayloadGo (hc : HalfConn) (stale : Nat → Byte) (ad0 b : Bytes) (e : Nat) : Res (Bytes × Option Cipher) := do
  let payload ← goFrom b 5
  match hc.cipher with
  | none => .ok (b, none)
  | some (.stream ks pos) => .ok (b.take 5 ++ xorStream ks pos payload, some (.stream ks (pos + payload.length)))
  | some (.aead a) => do
    let payloadLen : Int := (b.length : Int) - 5 - e
    let b ← goResize stale b (b.length + a.raw.overhead)
    let nonce ← goRange b 5 (5 + e)
    let nonce := if nonce.length = 0 then hc.seq else nonce
    let payload ← goFrom b (5 + e)
    let payload ← goTo payload payloadLen
    let ad ← additionalGo ad0 hc.seq b payloadLen
    wrapGo a nonce
    let r := a.sealW nonce payload ad
    .ok (copyAt b (5 + e) r.1, some (.aead r.2))
  | some (.cbc bs dec f iv) => do
    let iv' ← ivStepGo bs e payload iv
    let payload ← skipIVGo e payload
    let (pre, final) ← padToBlockSizeGo payload bs
    let b ← goResize stale b (5 + e + pre.length + final.length)
    let (b, iv1) ← cryptIntoGo bs dec f iv' b (5 + e) pre
    let (b, iv2) ← cryptIntoGo bs dec f iv1 b (5 + e + pre.length) final
    .ok (b, some (.cbc bs dec f iv2))

/-- tls/conn.go:391-448 `encrypt` -/
def HalfConn.encryptGo (hc : HalfConn) (stale : Nat → Byte) (ad0 b : Bytes) (e : Nat) : Res (Bytes × HalfConn) := do
  let b ← hc.appendMacGo stale b e
  let (b, c) ← hc.sealPayloadGo stale ad0 b e
  let n : Int := (b.length : Int) - 5
  let b ← goSet b 3 (hiByte n)
  let b ← goSet b 4 (loByte n)
  let hc' ← ({ hc with cipher := c } : HalfConn).incSeq
  .ok (b, hc')

/-! ### lemmas on the operations -/

theorem goTo_ok (s : Bytes) (k : Nat) (h : k ≤ s.length) : goTo s k = .ok (s.take k) := by
  unfold goTo; rw [if_pos (by omega)]; rfl
theorem goFrom_ok (s : Bytes) (k : Nat) (h : k ≤ s.length) : goFrom s k = .ok (s.drop k) := by
  unfold goFrom; rw [if_pos (by omega)]; rfl
theorem goRange_ok (s : Bytes) (a k : Nat) (h : a + k ≤ s.length) : goRange s a (a + k) = .ok ((s.drop a).take k) := by
  unfold goRange; rw [if_pos (by omega)]
  rw [show ((a : Int) + k - a).toNat = k by omega]; rfl
theorem goAt_ok (s : Bytes) (i : Int) (k : Nat) (hi : i = k) (h : k < s.length) : goAt s i = .ok (s.getD k 0) := by
  unfold goAt; subst hi; rw [if_pos (by omega)]; rfl
theorem goSet_ok (s : Bytes) (k : Nat) (v : Byte) (h : k < s.length) : goSet s k v = .ok (s.set k v) := by
  unfold goSet; rw [if_pos (by omega)]; rfl
theorem goResize_ok (stale : Nat → Byte) (s : Bytes) (k : Nat) (h : k ≤ s.length) : goResize stale s k = .ok (s.take k) := by
  unfold goResize; rw [if_pos (by omega)]
  simp only [Int.toNat_natCast, Nat.sub_eq_zero_of_le h, List.range_zero, List.map_nil, List.append_nil]

theorem hiByte_loByte (n : Int) : [hiByte n, loByte n] = len16 n := by
  unfold len16 hiByte loByte
  simp only [beFixed, List.nil_append, List.cons_append, List.cons.injEq, and_true]
  constructor <;>
  · apply BitVec.eq_of_toNat_eq
    rw [BitVec.toNat_ofInt, BitVec.toNat_ofNat]
    omega

/-- writing bytes 3 and 4 of a record -/
theorem set34 (b : Bytes) (n : Int) (h : 5 ≤ b.length) :
    (b.set 3 (hiByte n)).set 4 (loByte n) = b.take 3 ++ len16 n ++ b.drop 5 := by
  match b, h with
  | x0 :: x1 :: x2 :: x3 :: x4 :: r, _ =>
    rw [← hiByte_loByte]
    simp

theorem copyAt_whole (dst src : Bytes) (off : Nat) (h2 : off + src.length = dst.length) :
    copyAt dst off src = dst.take off ++ src := by
  unfold copyAt
  rw [List.take_of_length_le (l := src) (by omega), List.drop_of_length_le (by omega), List.append_nil]

theorem copyAt_mid (A B C src : Bytes) (h : src.length = B.length) : copyAt (A ++ B ++ C) A.length src = A ++ src ++ C := by
  unfold copyAt
  have h1 : (A ++ B ++ C).take A.length = A := by rw [List.append_assoc, List.take_left]
  have h2 : (A ++ B ++ C).length - A.length = B.length + C.length := by simp only [List.length_append]; omega
  rw [h1, h2, List.take_of_length_le (l := src) (by omega), show A.length + min src.length (B.length + C.length) = (A ++ B).length by
    simp only [List.length_append]; omega, List.drop_left]

theorem additionalGo_ok (ad0 seq b : Bytes) (n : Int) (h13 : ad0.length = 13) (h8 : seq.length = 8) (hb : 5 ≤ b.length) :
    additionalGo ad0 seq b n = .ok (seq ++ b.take 3 ++ len16 n) := by
  have hc1 : copyAt ad0 0 seq = seq ++ ad0.drop 8 := by
    unfold copyAt
    rw [List.take_zero, List.nil_append, List.take_of_length_le (by omega), show 0 + min seq.length (ad0.length - 0) = 8 by omega]
  have hc2 : copyAt (seq ++ ad0.drop 8) 8 (b.take 3) = seq ++ b.take 3 ++ ad0.drop 11 := by
    unfold copyAt
    have ht : (b.take 3).length = 3 := by rw [List.length_take]; omega
    rw [List.length_append, List.length_drop, List.take_append_of_le_length (by omega), List.take_of_length_le (l := seq) (by omega),
      List.take_of_length_le (l := b.take 3) (by omega), ht, h8, h13, show 8 + min 3 (8 + (13 - 8) - 8) = seq.length + 3 by omega,
      List.drop_append, List.drop_of_length_le (l := seq) (by omega), List.nil_append, List.drop_drop]
    congr 2
    omega
  have hl : (seq ++ b.take 3 ++ ad0.drop 11).length = 13 := by simp only [List.length_append, List.length_take, List.length_drop]; omega
  have hs : ((seq ++ b.take 3 ++ ad0.drop 11).set 11 (hiByte n)).set 12 (loByte n) = seq ++ b.take 3 ++ len16 n := by
    have hp : (seq ++ b.take 3).length = 11 := by simp only [List.length_append, List.length_take]; omega
    have h2 : (ad0.drop 11).length = 2 := by rw [List.length_drop]; omega
    generalize seq ++ b.take 3 = P at hp
    generalize ad0.drop 11 = Q at h2
    match Q, h2 with
    | [x, y], _ =>
      rw [← hiByte_loByte, List.set_append_right _ _ (by omega), List.set_append_right _ _ (by omega), hp]
      rfl
  unfold additionalGo
  simp only [hc1]
  rw [show (3 : Int) = ((3 : Nat) : Int) by rfl, goTo_ok _ _ (by omega), Res.ok_bind]
  simp only [hc2]
  rw [show (11 : Int) = ((11 : Nat) : Int) by rfl, goSet_ok _ _ _ (by omega), Res.ok_bind,
    show (12 : Int) = ((12 : Nat) : Int) by rfl, goSet_ok _ _ _ (by rw [List.length_set]; omega), hs]

theorem paddingLoopGo_ok (payload : Bytes) (pl : Byte) (k i : Nat) (good : Byte) (h : i + k ≤ payload.length) :
    paddingLoopGo payload pl k i good = .ok ((List.range' i k).foldl (paddingStep payload pl) good) := by
  induction k generalizing i good with
  | zero => rfl
  | succ k ih =>
    unfold paddingLoopGo
    rw [goAt_ok payload _ (payload.length - 1 - i) (by omega) (by omega)]
    simp only [Res.ok_bind]
    rw [ih _ _ (by omega)]
    rfl

theorem extractPaddingGo_ok (p : Bytes) : extractPaddingGo p = .ok (extractPadding p) := by
  unfold extractPaddingGo extractPadding
  split
  · rfl
  · rw [goAt_ok p _ (p.length - 1) (by omega) (by omega)]
    simp only [Res.ok_bind]
    rw [paddingLoopGo_ok _ _ _ _ _ (by split <;> omega)]
    simp only [Res.ok_bind, ← List.range_eq_range']

theorem extractPaddingSSL30Go_ok (p : Bytes) : extractPaddingSSL30Go p = .ok (extractPaddingSSL30 p) := by
  unfold extractPaddingSSL30Go extractPaddingSSL30
  split
  · rfl
  · rw [goAt_ok p _ (p.length - 1) (by omega) (by omega)]
    simp only [Res.ok_bind]
    split <;> rfl

theorem extract_le (p : Bytes) : (extractPadding p).1 ≤ 256 := by
  unfold extractPadding
  split
  · simp
  · have := (p.getD (p.length - 1) 0).isLt
    simp only
    omega

theorem extractSSL30_le (p : Bytes) : (extractPaddingSSL30 p).1 ≤ 256 := by
  unfold extractPaddingSSL30
  split
  · simp
  · have := (p.getD (p.length - 1) 0).isLt
    simp only
    split <;> simp only <;> omega

/-! ### decrypt -/

/-- what `openPayloadGo` adds to the result of `openPayload`: the record's bytes -/
def withRecord (data : Bytes) (r : Option Opened × Option Cipher) : Option (Opened × Bytes) × Option Cipher :=
  (r.1.map fun p => (p, data.take (5 + p.explicitIVLen) ++ p.payload), r.2)

theorem roundUp_ge (a b : Nat) : a ≤ roundUp a b := by unfold roundUp; omega

theorem wrapGo_ok (a : Aead) (nonce : Bytes) (h : (∃ m, a.wrap = .xored m) → nonce.length = 8) : wrapGo a nonce = .ok () := by
  unfold wrapGo
  cases hw : a.wrap with
  | fixed _ => rfl
  | xored m => simp only; rw [if_pos (by rw [h ⟨m, hw⟩])]

theorem ivStepGo_ok (bs e : Nat) (payload iv : Bytes) (he : e = bs ∨ e = 0) (hle : e ≤ payload.length) :
    ivStepGo bs e payload iv = .ok (if e > 0 then payload.take e else iv) := by
  unfold ivStepGo
  split
  · rw [goTo_ok _ _ hle, Res.ok_bind]
    unfold setIVGo
    rw [if_neg]
    rw [List.length_take]; omega
  · rfl

theorem skipIVGo_ok (e : Nat) (payload : Bytes) (hle : e ≤ payload.length) :
    skipIVGo e payload = .ok (if e > 0 then payload.drop e else payload) := by
  unfold skipIVGo
  split
  · rw [goFrom_ok _ _ hle]
  · rfl

theorem padStepGo_ok (v : Version) (p : Bytes) :
    padStepGo v p = .ok (if v = vSSL30 then extractPaddingSSL30 p else extractPadding p) := by
  unfold padStepGo
  split
  · exact extractPaddingSSL30Go_ok p
  · exact extractPaddingGo_ok p

theorem openPayloadGo_ok (hc : HalfConn) (stale : Nat → Byte) (ad0 data : Bytes) (h13 : ad0.length = 13) (h8 : hc.seq.length = 8)
    (h5 : 5 ≤ data.length) (hbs : ∀ bs, shape hc.cipher = .cbc bs → 0 < bs) :
    hc.openPayloadGo stale ad0 data = (hc.openPayload data).map (withRecord data) ∧
    ∀ p c, hc.openPayload data = .ok (some p, c) → 5 + p.explicitIVLen ≤ data.length ∧ p.paddingLen ≤ 256 := by
  have hd : (data.drop 5).length = data.length - 5 := List.length_drop
  unfold HalfConn.openPayloadGo HalfConn.openPayload
  rw [show (5 : Int) = ((5 : Nat) : Int) by rfl, goFrom_ok _ _ h5, Res.ok_bind]
  cases hca : hc.cipher with
  | none =>
    refine ⟨?_, ?_⟩
    · simp only [Res.map, withRecord, Option.map, Nat.add_zero, List.take_append_drop]
    · intro p c h; cases h; exact ⟨h5, by simp⟩
  | some cc =>
    cases cc with
    | stream ks pos =>
      refine ⟨rfl, ?_⟩
      intro p c h; cases h; exact ⟨h5, by simp⟩
    | aead a =>
      dsimp only
      by_cases hl : (data.drop 5).length < a.explicitNonceLen
      · rw [if_pos hl, if_pos hl]
        exact ⟨rfl, fun p c h => (by cases h)⟩
      · rw [if_neg hl, if_neg hl]
        rw [goTo_ok _ _ (by omega), goFrom_ok _ _ (by omega)]
        simp only [Res.ok_bind]
        rw [additionalGo_ok _ _ _ _ h13 h8 h5]
        simp only [Res.ok_bind]
        rw [wrapGo_ok]
        · simp only [Res.ok_bind]
          generalize a.openW _ _ _ = w
          obtain ⟨w1, w2⟩ := w
          cases w1 with
          | none => exact ⟨rfl, fun p c h => (by cases h)⟩
          | some p =>
            refine ⟨?_, ?_⟩
            · simp only
              rw [show (((5 : Nat) : Int) + (a.explicitNonceLen : Int) + (p.length : Int)) = ((5 + a.explicitNonceLen + p.length : Nat) : Int) by omega]
              have hle : (data.take (5 + a.explicitNonceLen) ++ p).length = 5 + a.explicitNonceLen + p.length := by
                rw [List.length_append, List.length_take]; omega
              rw [goResize_ok _ _ _ (by omega), List.take_of_length_le (by omega)]
              rfl
            · intro q c h; cases h; exact ⟨by simp only; omega, by simp⟩
        · rintro ⟨m, hm⟩
          rw [if_pos (by unfold Aead.explicitNonceLen; rw [hm]; simp), h8]
    | cbc bs dec f iv =>
      have h0 := hbs bs (by rw [hca]; rfl)
      dsimp only
      generalize he : (if explicitIVVersion hc.version = true then bs else 0) = e
      have he' : e = bs ∨ e = 0 := by rw [← he]; split <;> simp
      rw [goMod, if_neg (by omega), Res.ok_bind]
      by_cases hn : (data.drop 5).length % bs ≠ 0 ∨ (data.drop 5).length < roundUp (e + hc.macSize + 1) bs
      · rw [if_pos hn, if_pos hn]
        exact ⟨rfl, fun p c h => (by cases h)⟩
      · rw [if_neg hn, if_neg hn]
        have hge := roundUp_ge (e + hc.macSize + 1) bs
        have hle : e ≤ (data.drop 5).length := by omega
        rw [ivStepGo_ok _ _ _ _ he' hle, Res.ok_bind, skipIVGo_ok _ _ hle, Res.ok_bind]
        generalize cryptBlocks bs dec f _ _ = r
        cases r with
        | err m => exact ⟨rfl, fun p c h => (by cases h)⟩
        | panic => exact ⟨rfl, fun p c h => (by cases h)⟩
        | ok q =>
          obtain ⟨p, iv''⟩ := q
          simp only [Res.ok_bind]
          rw [padStepGo_ok, Res.ok_bind]
          refine ⟨rfl, ?_⟩
          intro q c h
          cases h
          refine ⟨by simp only; omega, ?_⟩
          simp only
          split
          · exact extractSSL30_le p
          · exact extract_le p

theorem selectGo_eq (n : Int) (h : -(2 : Int) ^ 31 ≤ n) : selectGo n = (selectNeg n : Int) ∧ (selectNeg n : Int) ≤ max n 0 := by
  unfold selectGo selectNeg
  by_cases hn : n < 0
  · have : (BitVec.ofInt 32 n).msb = true := by
      rw [BitVec.msb_eq_toInt, BitVec.toInt_ofInt]
      simp only [decide_eq_true_eq]
      rw [Int.bmod_def]; omega
    rw [if_pos this, if_pos this]; simp
  · split
    · simp
    · constructor <;> omega

theorem checkMacGo_ok (hc : HalfConn) (stale : Nat → Byte) (data : Bytes) (p : Opened) (he : 5 + p.explicitIVLen ≤ data.length)
    (hp : p.paddingLen ≤ 256) :
    match hc.checkMac data p with
    | none => hc.checkMacGo stale p (data.take (5 + p.explicitIVLen) ++ p.payload) = .ok none
    | some d => ∃ data', hc.checkMacGo stale p (data.take (5 + p.explicitIVLen) ++ p.payload) = .ok (some data') ∧
        goFrom data' (5 + p.explicitIVLen) = .ok d := by
  have hE : (data.take (5 + p.explicitIVLen)).length = 5 + p.explicitIVLen := by rw [List.length_take]; omega
  unfold HalfConn.checkMac HalfConn.checkMacGo
  cases hc.mac with
  | none =>
    refine ⟨_, rfl, ?_⟩
    rw [show ((5 : Int) + (p.explicitIVLen : Int)) = ((5 + p.explicitIVLen : Nat) : Int) by omega, goFrom_ok _ _ (by rw [List.length_append]; omega),
      List.drop_left' hE]
  | some m =>
    simp only
    by_cases hl : p.payload.length < m.size
    · rw [if_pos hl, if_pos hl]
    · rw [if_neg hl, if_neg hl]
      obtain ⟨h1, h2⟩ := selectGo_eq ((p.payload.length : Int) - m.size - p.paddingLen) (by omega)
      rw [h1]
      generalize selectNeg ((p.payload.length : Int) - m.size - p.paddingLen) = n at h2
      have hn : n + m.size ≤ p.payload.length := by omega
      have hlen : (data.take (5 + p.explicitIVLen) ++ p.payload).length = 5 + p.explicitIVLen + p.payload.length := by
        rw [List.length_append, hE]
      rw [show (3 : Int) = ((3 : Nat) : Int) by rfl, goSet_ok _ _ _ (by omega), Res.ok_bind,
        show (4 : Int) = ((4 : Nat) : Int) by rfl, goSet_ok _ _ _ (by rw [List.length_set]; omega), Res.ok_bind,
        goRange_ok _ _ _ hn, Res.ok_bind, set34 _ _ (by omega)]
      have ht3 : (data.take (5 + p.explicitIVLen) ++ p.payload).take 3 = data.take 3 := by
        rw [List.take_append_of_le_length (by omega), List.take_take, Nat.min_eq_left (by omega)]
      have hd5 : (data.take (5 + p.explicitIVLen) ++ p.payload).drop 5 = (data.take (5 + p.explicitIVLen)).drop 5 ++ p.payload := by
        rw [List.drop_append_of_le_length (by omega)]
      have h35 : (data.take 3 ++ len16 (n : Int)).length = 5 := by rw [List.length_append, len16_length, List.length_take]; omega
      have hd5l : ((data.take (5 + p.explicitIVLen)).drop 5).length = p.explicitIVLen := by rw [List.length_drop, hE]; omega
      rw [ht3, hd5]
      rw [show (5 : Int) = ((5 : Nat) : Int) by rfl, goTo_ok _ _ (by rw [List.length_append]; omega), Res.ok_bind, goTo_ok _ _ (by omega),
        Res.ok_bind, show ((n : Int) + (m.size : Int)) = ((n + m.size : Nat) : Int) by omega, goFrom_ok _ _ hn, Res.ok_bind, List.take_left' h35]
      by_cases hx : m.mac hc.seq (data.take 3 ++ len16 (n : Int)) (p.payload.take n) ≠ (p.payload.drop n).take m.size ∨ p.paddingGood ≠ 255
      · rw [if_pos hx, if_pos hx]
      · rw [if_neg hx, if_neg hx]
        simp only
        have hEl : (data.take 3 ++ len16 (n : Int) ++ (data.take (5 + p.explicitIVLen)).drop 5).length = 5 + p.explicitIVLen := by
          rw [List.length_append, h35, hd5l]
        rw [show (((5 : Nat) : Int) + (p.explicitIVLen : Int) + (n : Int)) = ((5 + p.explicitIVLen + n : Nat) : Int) by omega,
          goResize_ok _ _ _ (by rw [← List.append_assoc, List.length_append, hEl]; omega), Res.ok_bind]
        refine ⟨_, rfl, ?_⟩
        rw [← List.append_assoc]
        generalize data.take 3 ++ len16 (n : Int) ++ (data.take (5 + p.explicitIVLen)).drop 5 = E at hEl
        rw [List.take_append, List.take_of_length_le (by omega), show 5 + p.explicitIVLen + n - E.length = n by omega,
          show (((5 : Nat) : Int) + (p.explicitIVLen : Int)) = ((5 + p.explicitIVLen : Nat) : Int) by omega,
          goFrom_ok _ _ (by rw [List.length_append]; omega), List.drop_left' hEl]

theorem decryptGo_eq (hc : HalfConn) (stale : Nat → Byte) (ad0 data : Bytes) (h13 : ad0.length = 13) (h8 : hc.seq.length = 8)
    (h5 : 5 ≤ data.length) (hbs : ∀ bs, shape hc.cipher = .cbc bs → 0 < bs) : hc.decryptGo stale ad0 data = hc.decrypt data := by
  obtain ⟨ho, hp⟩ := openPayloadGo_ok hc stale ad0 data h13 h8 h5 hbs
  unfold HalfConn.decryptGo HalfConn.decrypt
  rw [ho]
  cases hop : hc.openPayload data with
  | err m => rfl
  | panic => rfl
  | ok r =>
    obtain ⟨o, c⟩ := r
    cases o with
    | none => rfl
    | some p =>
      obtain ⟨h1, h2⟩ := hp p c hop
      have hm := checkMacGo_ok { hc with cipher := c } stale data p h1 h2
      simp only [Res.map, withRecord, Option.map, Res.ok_bind]
      revert hm
      cases ({ hc with cipher := c } : HalfConn).checkMac data p with
      | none => intro hm; simp only at hm; rw [hm]; rfl
      | some d =>
        intro hm
        obtain ⟨d', hm, hf⟩ := hm
        rw [hm]
        simp only [Res.ok_bind]
        cases ({ hc with cipher := c } : HalfConn).incSeq with
        | err m => rfl
        | panic => rfl
        | ok hc' => simp only [Res.ok_bind, hf]

/-! ### encrypt -/

theorem goResize_grow (stale : Nat → Byte) (s : Bytes) (k : Nat) :
    ∃ j : Bytes, j.length = k ∧ goResize stale s ((s.length + k : Nat) : Int) = .ok (s ++ j) := by
  refine ⟨(List.range k).map stale, by simp, ?_⟩
  unfold goResize
  rw [if_pos (by omega), Int.toNat_natCast, List.take_of_length_le (by omega), Nat.add_sub_cancel_left]

theorem padLoopGo_ok (v : Byte) (k : Nat) (A B : Bytes) (h : B.length = k) :
    padLoopGo v k A.length (A ++ B) = .ok (A ++ List.replicate k v) := by
  induction k generalizing A B with
  | zero =>
    rw [List.length_eq_zero_iff.mp h]
    simp [padLoopGo]
  | succ k ih =>
    match B, h with
    | x :: B, h =>
      unfold padLoopGo
      rw [goSet_ok _ _ _ (by simp), Res.ok_bind, List.set_append_right _ _ (by omega), Nat.sub_self, List.set_cons_zero]
      have := ih (A ++ [v]) B (by simpa using h)
      rw [List.length_append, List.append_assoc, List.append_assoc] at this
      simpa [List.replicate_succ] using this

theorem padToBlockSizeGo_ok (payload : Bytes) (bs : Nat) (h0 : 0 < bs) : padToBlockSizeGo payload bs = .ok (padToBlockSize payload bs) := by
  have hm := Nat.mod_lt payload.length h0
  have hle := Nat.mod_le payload.length bs
  have htl : (payload.drop (payload.length - payload.length % bs)).length = payload.length % bs := by rw [List.length_drop]; omega
  unfold padToBlockSizeGo padToBlockSize
  rw [goMod, if_neg (by omega), Res.ok_bind]
  rw [show ((payload.length : Int) - ((payload.length % bs : Nat) : Int)) = ((payload.length - payload.length % bs : Nat) : Int) by omega,
    goTo_ok _ _ (by omega), Res.ok_bind, goFrom_ok _ _ (by omega), Res.ok_bind]
  have hc : copyAt (List.replicate bs 0) 0 (payload.drop (payload.length - payload.length % bs)) =
      payload.drop (payload.length - payload.length % bs) ++ List.replicate (bs - payload.length % bs) 0 := by
    unfold copyAt
    rw [List.take_zero, List.nil_append, List.length_replicate, List.take_of_length_le (by omega), htl, List.drop_replicate]
    congr 2
    omega
  simp only [hc]
  have := padLoopGo_ok (loByte ((bs : Int) - ((payload.length % bs : Nat) : Int) - 1)) (bs - payload.length % bs)
    (payload.drop (payload.length - payload.length % bs)) (List.replicate (bs - payload.length % bs) 0) (by simp)
  rw [htl] at this
  rw [this, Res.ok_bind]
  have hv : loByte ((bs : Int) - ((payload.length % bs : Nat) : Int) - 1) = BitVec.ofNat 8 (bs - payload.length % bs - 1) := by
    unfold loByte
    rw [show ((bs : Int) - ((payload.length % bs : Nat) : Int) - 1) = ((bs - payload.length % bs - 1 : Nat) : Int) by omega, BitVec.ofInt_natCast]
  rw [hv]

theorem appendMacGo_ok (hc : HalfConn) (stale : Nat → Byte) (b : Bytes) (e : Nat) (hb : 5 + e ≤ b.length) :
    hc.appendMacGo stale b e = .ok (hc.appendMac b e) := by
  unfold HalfConn.appendMacGo HalfConn.appendMac
  cases hc.mac with
  | none => rfl
  | some m =>
    simp only
    rw [show (5 : Int) = ((5 : Nat) : Int) by rfl, goTo_ok _ _ (by omega), Res.ok_bind,
      show (((5 : Nat) : Int) + (e : Int)) = ((5 + e : Nat) : Int) by omega, goFrom_ok _ _ hb, Res.ok_bind]
    generalize m.mac hc.seq (b.take 5) (b.drop (5 + e)) = mac
    obtain ⟨j, hj, hr⟩ := goResize_grow stale b mac.length
    rw [show ((b.length : Int) + (mac.length : Int)) = ((b.length + mac.length : Nat) : Int) by omega, hr, Res.ok_bind,
      goFrom_ok _ _ (by rw [List.length_append]; omega), Res.ok_bind, copyAt_whole _ _ _ (by rw [List.length_append]; omega),
      List.take_left]

theorem cryptIntoGo_ok (bs : Nat) (f : Bytes → Bytes) (iv A B C src : Bytes) (hf : ∀ b, b.length = bs → (f b).length = bs)
    (hiv : iv.length = bs) (hs : src.length % bs = 0) (hB : B.length = src.length) (off : Int) (ho : off = A.length) :
    ∃ c iv', cryptBlocks bs false f iv src = .ok (c, iv') ∧ c.length = src.length ∧ iv'.length = bs ∧
      cryptIntoGo bs false f iv (A ++ B ++ C) off src = .ok (A ++ c ++ C, iv') := by
  have hk : src.length = src.length / bs * bs := by
    have := Nat.div_add_mod src.length bs
    rw [Nat.mul_comm] at this; omega
  obtain ⟨l1, l2⟩ := cbcEnc_length f bs (src.length / bs) iv src hf hiv hk
  have hcb : cryptBlocks bs false f iv src = .ok (cbcEnc f bs (src.length / bs) iv src) := by
    unfold cryptBlocks
    rw [if_neg (by simpa using hs)]; rfl
  refine ⟨(cbcEnc f bs (src.length / bs) iv src).1, (cbcEnc f bs (src.length / bs) iv src).2, hcb, by omega, l2, ?_⟩
  unfold cryptIntoGo
  subst ho
  rw [goFrom_ok _ _ (by simp only [List.length_append]; omega), Res.ok_bind,
    if_neg (by simp only [List.length_drop, List.length_append]; omega), hcb, Res.ok_bind]
  simp only [Int.toNat_natCast]
  rw [copyAt_mid _ _ _ _ (by omega)]

theorem sealPayloadGo_ok (hc : HalfConn) (stale : Nat → Byte) (ad0 b : Bytes) (e : Nat) (h13 : ad0.length = 13) (h8 : hc.seq.length = 8)
    (hl : Spec.SizesLawful hc) (he : e = hc.writeIVLen) (hb : 5 + e ≤ b.length) :
    hc.sealPayloadGo stale ad0 b e = hc.sealPayload b e := by
  unfold HalfConn.sealPayloadGo HalfConn.sealPayload
  unfold HalfConn.writeIVLen at he
  rw [show (5 : Int) = ((5 : Nat) : Int) by rfl, goFrom_ok _ _ (by omega), Res.ok_bind]
  cases hca : hc.cipher with
  | none => rfl
  | some cc =>
    rw [hca] at he
    cases cc with
    | stream ks pos => rfl
    | aead a =>
      simp only at he ⊢
      obtain ⟨j, hj, hr⟩ := goResize_grow stale b a.raw.overhead
      rw [show ((b.length : Int) + (a.raw.overhead : Int)) = ((b.length + a.raw.overhead : Nat) : Int) by omega, hr, Res.ok_bind]
      have e1 : ((b ++ j).drop 5).take e = (b.drop 5).take e := by
        rw [List.drop_append_of_le_length (by omega), List.take_append_of_le_length (by rw [List.length_drop]; omega)]
      have e2 : (b ++ j).drop (5 + e) = b.drop (5 + e) ++ j := by rw [List.drop_append_of_le_length hb]
      have e3 : (b ++ j).take 3 = b.take 3 := by rw [List.take_append_of_le_length (by omega)]
      have hd : (b.drop (5 + e)).length = b.length - (5 + e) := List.length_drop
      rw [goRange_ok _ _ _ (by rw [List.length_append]; omega), Res.ok_bind, e1,
        show (((5 : Nat) : Int) + (e : Int)) = ((5 + e : Nat) : Int) by omega, goFrom_ok _ _ (by rw [List.length_append]; omega), Res.ok_bind, e2,
        show ((b.length : Int) - ((5 : Nat) : Int) - (e : Int)) = ((b.length - (5 + e) : Nat) : Int) by omega,
        goTo_ok _ _ (by rw [List.length_append]; omega), Res.ok_bind, List.take_left' hd,
        additionalGo_ok _ _ _ _ h13 h8 (by rw [List.length_append]; omega), Res.ok_bind, e3, wrapGo_ok, Res.ok_bind]
      · rw [copyAt_whole]
        · rw [List.take_append_of_le_length hb]
        · simp only [Aead.sealW]
          rw [hl.aead a hca, List.length_append]
          omega
      · rintro ⟨m, hm⟩
        have : e = 0 := by rw [he]; unfold Aead.explicitNonceLen; rw [hm]
        rw [this, List.take_zero, if_pos (by simp), h8]
    | cbc bs dec f iv =>
      obtain ⟨hd, h0, hiv, hf⟩ := hl.cbc bs dec f iv hca
      subst hd
      simp only at he ⊢
      have he' : e = bs ∨ e = 0 := by rw [he]; split <;> simp
      have hd5 : (b.drop 5).length = b.length - 5 := List.length_drop
      rw [ivStepGo_ok _ _ _ _ he' (by omega), Res.ok_bind, skipIVGo_ok _ _ (by omega), Res.ok_bind]
      have hsk : (if e > 0 then (b.drop 5).drop e else b.drop 5) = b.drop (5 + e) := by
        split
        · rw [List.drop_drop]
        · rename_i h; rw [show e = 0 by omega]
      rw [hsk, padToBlockSizeGo_ok _ _ h0, Res.ok_bind]
      have hivl : (if e > 0 then (b.drop 5).take e else iv).length = bs := by
        split
        · rw [List.length_take]; omega
        · exact hiv
      generalize (if e > 0 then (b.drop 5).take e else iv) = iv' at hivl
      obtain ⟨hp1, hp2, _⟩ := padToBlockSize_spec (b.drop (5 + e)) bs h0
      have hple : (padToBlockSize (b.drop (5 + e)) bs).1.length ≤ b.length - (5 + e) := by
        unfold padToBlockSize
        simp only [List.length_take, List.length_drop]; omega
      generalize padToBlockSize (b.drop (5 + e)) bs = pp at hp1 hp2 hple
      obtain ⟨pre, fin⟩ := pp
      simp only at hp1 hp2 hple ⊢
      -- the resized record
      obtain ⟨B, C, hB, hC, hr⟩ : ∃ B C : Bytes, B.length = pre.length ∧ C.length = fin.length ∧
          goResize stale b (((5 + e + pre.length + fin.length : Nat)) : Int) = .ok (b.take (5 + e) ++ B ++ C) := by
        unfold goResize
        rw [if_pos (by omega), Int.toNat_natCast]
        generalize hX : b.take (5 + e + pre.length + fin.length) ++ (List.range (5 + e + pre.length + fin.length - b.length)).map stale = X
        have hXl : X.length = 5 + e + pre.length + fin.length := by
          rw [← hX, List.length_append, List.length_take, List.length_map, List.length_range]; omega
        have hX5 : X.take (5 + e) = b.take (5 + e) := by
          rw [← hX, List.take_append_of_le_length (by rw [List.length_take]; omega), List.take_take, Nat.min_eq_left (by omega)]
        refine ⟨(X.drop (5 + e)).take pre.length, X.drop (5 + e + pre.length), ?_, ?_, ?_⟩
        · rw [List.length_take, List.length_drop]; omega
        · rw [List.length_drop]; omega
        · rw [← hX5, List.append_assoc, show X.drop (5 + e + pre.length) = (X.drop (5 + e)).drop pre.length from List.drop_drop.symm, List.take_append_drop, List.take_append_drop]
      have hA : (b.take (5 + e)).length = 5 + e := by rw [List.length_take]; omega
      rw [show (((5 : Nat) : Int) + (e : Int) + (pre.length : Int) + (fin.length : Int)) = ((5 + e + pre.length + fin.length : Nat) : Int) by omega,
        hr, Res.ok_bind]
      obtain ⟨c1, iv1, hc1, hl1, hv1, hi1⟩ := cryptIntoGo_ok bs f iv' (b.take (5 + e)) B C pre hf hivl hp1 hB (((5 : Nat) : Int) + (e : Int)) (by omega)
      obtain ⟨c2, iv2, hc2, hl2, hv2, hi2⟩ := cryptIntoGo_ok bs f iv1 (b.take (5 + e) ++ c1) C [] fin hf hv1 (by rw [hp2, Nat.mod_self]) hC
        (((5 : Nat) : Int) + (e : Int) + (pre.length : Int)) (by rw [List.length_append]; omega)
      rw [List.append_nil, List.append_nil] at hi2
      rw [hi1, Res.ok_bind]
      simp only
      rw [hi2, Res.ok_bind, hc1]
      simp only
      rw [hc2]
      simp only [List.append_assoc]

theorem encryptGo_eq (hc : HalfConn) (stale : Nat → Byte) (ad0 b : Bytes) (e : Nat) (h13 : ad0.length = 13) (h8 : hc.seq.length = 8)
    (hl : Spec.SizesLawful hc) (he : e = hc.writeIVLen) (hb : 5 + e ≤ b.length) :
    hc.encryptGo stale ad0 b e = hc.encrypt b e := by
  have hbm : 5 + e ≤ (hc.appendMac b e).length := by rw [appendMac_length _ hl]; omega
  unfold HalfConn.encryptGo HalfConn.encrypt
  rw [appendMacGo_ok _ _ _ _ hb, Res.ok_bind, sealPayloadGo_ok _ _ _ _ _ h13 h8 hl he hbm]
  cases hs : hc.sealPayload (hc.appendMac b e) e with
  | err m => rfl
  | panic => rfl
  | ok r =>
    obtain ⟨r, c⟩ := r
    have hrl : 5 ≤ r.length := by
      have := (sealPayload_len hc hl (hc.appendMac b e) e (b.length - (5 + e)) he (by rw [appendMac_length _ hl]; omega) r c hs).1
      rw [this]
      cases shape hc.cipher <;> simp only [Spec.recordLen] <;> omega
    simp only [Res.ok_bind]
    rw [show (3 : Int) = ((3 : Nat) : Int) by rfl, goSet_ok _ _ _ (by omega), Res.ok_bind,
      show (4 : Int) = ((4 : Nat) : Int) by rfl, goSet_ok _ _ _ (by rw [List.length_set]; omega), Res.ok_bind, set34 _ _ hrl]
    cases ({ hc with cipher := c } : HalfConn).incSeq <;> rfl

/-- **C144 (receiving).** Whatever bytes a record has, whatever cipher and MAC are in use, however the 13-byte scratch array and the
buffers were filled: decryption with checked slices returns (no index, slice, block or division panics) and computes what `decrypt` does. -/
theorem C144_decrypt (hc : HalfConn) (stale : Nat → Byte) (ad0 data : Bytes) (h13 : ad0.length = 13) (h8 : hc.seq.length = 8)
    (hroom : beNat hc.seq + 1 < 2 ^ 64) (h5 : 5 ≤ data.length) (hbs : ∀ bs, shape hc.cipher = .cbc bs → 0 < bs) :
    ∃ r, hc.decryptGo stale ad0 data = .ok r ∧ hc.decrypt data = .ok r := by
  obtain ⟨d, hc', h, _⟩ := decrypt_total 0 hc data ⟨h8, by omega, hbs⟩
  exact ⟨_, (decryptGo_eq hc stale ad0 data h13 h8 h5 hbs).trans h, h⟩

/-- **C144 (sending).** Encryption with checked slices, buffers grown over stale bytes and results written in place gives exactly the
record of `encrypt`: nothing stale gets on the wire. -/
theorem C144_encrypt (hc : HalfConn) (stale : Nat → Byte) (ad0 b : Bytes) (e : Nat) (h13 : ad0.length = 13) (h8 : hc.seq.length = 8)
    (hl : Spec.SizesLawful hc) (he : e = hc.writeIVLen) (hb : 5 + e ≤ b.length) :
    hc.encryptGo stale ad0 b e = hc.encrypt b e := encryptGo_eq hc stale ad0 b e h13 h8 hl he hb

/-! ### examples -/

/-- a CBC half with two-byte blocks and a one-byte MAC, version TLS 1.1 (explicit IV) -/
def toyCbcIn : HalfConn :=
  { version := 0x0302, cipher := some (.cbc 2 true (fun b => b) [0, 0]), mac := some ⟨1, fun _ _ _ => [7]⟩ }

example : beNat toyCbcIn.seq + 1 < 2 ^ 64 ∧ (∀ bs, shape toyCbcIn.cipher = .cbc bs → 0 < bs) := by
  refine ⟨by decide, ?_⟩
  intro bs h
  cases h
  decide

/-- IV 0 0; blocks `42 7` and `1 1` (padding) -/
example : (toyCbcIn.decryptGo (fun _ => 9) (List.replicate 13 3) [23, 3, 2, 0, 6, 0, 0, 42, 7, 43, 6]).map (fun r => (r.1, r.2.seq)) =
    .ok (some [42], [0, 0, 0, 0, 0, 0, 0, 1]) := by decide +kernel

/-- a record of one IV only, and an empty one: refused, no panic -/
example : (toyCbcIn.decryptGo (fun _ => 9) (List.replicate 13 3) [23, 3, 2, 0, 2, 0, 0]).map (fun r => r.1) = .ok none ∧
    (toyCbcIn.decryptGo (fun _ => 9) (List.replicate 13 3) [23, 3, 2, 0, 0]).map (fun r => r.1) = .ok none := by decide +kernel

/-- the slices do panic out of range -/
example : goTo [1, 2] 3 = .panic ∧ goFrom [1, 2] (-1) = .panic ∧ goRange [1, 2] 1 3 = .panic ∧ goAt [1, 2] 2 = .panic ∧ goMod 4 0 = .panic ∧
    goTo [1, 2] 2 = .ok [1, 2] := by decide

end Verif.Tls
