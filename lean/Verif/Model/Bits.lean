/-
Model of the bitstream layer: `src/bits.h`, `src/bits.c`.

Conventions.
* `unsigned` values are natural numbers, reduced modulo `2^32` where the C code may wrap.
* Memory is the frame buffer only: `data` is its content, pointers are offsets from `start`,
  `end` is `data.length`. A byte is a natural number below 256.
* Undefined behaviour is a sticky flag `ub`: access out of the buffer, shift by 32 or more, or a
  renormalisation loop that does not end.
* A shift by exactly 32 bits may yield any value depending on compiler and processor: the field
  `sh32` gives the value obtained (the flag is raised nevertheless).
* `int` counters (`carry_count`, `n`, `nover`) are natural numbers: they never become negative,
  and are bounded by the number of operations, so that overflow of these is not modelled.
-/

namespace LC3

/-- `struct lc3_ac_symbol`, src/bits.h:79-82. -/
structure Sym where
  low : Nat
  range : Nat
  deriving DecidableEq, Repr, Inhabited

/-- `struct lc3_ac_model`, src/bits.h:84-86: 17 symbols. -/
abbrev AcModel := List Sym

/-- Access to the symbol `s` of a model (index out of the table is excluded by the callers, see
`AcModel.WF`; an arbitrary value is read here). -/
def AcModel.sym (m : AcModel) (s : Nat) : Sym := m.getD s ⟨0, 0⟩

/-- `struct lc3_bits_accu`, src/bits.h:94-97. -/
structure Accu where
  v : Nat
  n : Nat
  nover : Nat
  /-- value obtained for `x >> 32` on 32 bits -/
  sh32 : Nat → Nat
  ub : Bool

/-- `struct lc3_bits_ac`, src/bits.h:101-105. -/
structure Ac where
  low : Nat
  range : Nat
  cache : Int
  carry : Nat
  carryCount : Nat
  error : Bool
  ub : Bool
  deriving DecidableEq, Repr

/-- `struct lc3_bits_buffer`, src/bits.h:107-110, with the memory it points to. -/
structure Buf where
  data : List Nat
  fw : Nat
  bw : Nat
  ub : Bool
  deriving DecidableEq, Repr

/-- `struct lc3_bits`, src/bits.h:112-117; `rd` is `mode == LC3_BITS_MODE_READ`. -/
structure Bits where
  rd : Bool
  ac : Ac
  accu : Accu
  buf : Buf

/-- No undefined behaviour so far. -/
def Bits.ub (b : Bits) : Bool := b.ac.ub || b.accu.ub || b.buf.ub

/-! ### Common -/

/-- Conversion to `uint8_t`. -/
def byteOf (x : Int) : Nat := (x % 256).toNat

/-- Loop of `ac_get_range_bits`, src/bits.c:39 (32 iterations are enough for an `unsigned`). -/
def bitsLoop : Nat → Nat → Nat
  | 0, _ => 0
  | f + 1, r => if r = 0 then 0 else bitsLoop f (r >>> 1) + 1

/-- `ac_get_range_bits`, src/bits.c:35-42. -/
def rangeBits (ac : Ac) : Nat := bitsLoop 32 ac.range

/-- `ac_get_pending_bits`, src/bits.c:49-53. -/
def pendingBits (ac : Ac) : Int :=
  26 - rangeBits ac + ((if 0 ≤ ac.cache then 1 else 0) + (ac.carryCount : Int)) * 8

/-- `get_bits_left`, src/bits.c:60-75. -/
def bitsLeftRaw (b : Bits) : Int :=
  let e : Int := b.buf.bw + (if b.rd then 4 else 0)
  let s : Int := b.buf.fw - (if b.rd then 3 else 0)
  8 * (e - s) - (b.accu.n + b.accu.nover + pendingBits b.ac)

/-- `lc3_get_bits_left`, src/bits.c:114-117. -/
def getBitsLeft (b : Bits) : Int := if bitsLeftRaw b > 0 then bitsLeftRaw b else 0

/-- `lc3_check_bits`, src/bits.c:122-127: `true` is `0`, i.e. no error. -/
def checkBits (b : Bits) : Bool := !(decide (bitsLeftRaw b < 0) || b.ac.error)

/-! ### Writing -/

/-- Loop of `accu_flush`, src/bits.c:147-148: `*(--p_bw) = v & 0xff; v >>= 8`. -/
def flushLoop : Nat → Accu → Buf → Accu × Buf
  | 0, a, b => (a, b)
  | k + 1, a, b =>
    flushLoop k { a with v := a.v >>> 8 }
      { b with data := b.data.set (b.bw - 1) (a.v % 256), bw := b.bw - 1
               ub := b.ub || decide (b.bw = 0) || decide (b.data.length < b.bw) }

/-- `accu_flush`, src/bits.c:139-152. -/
def accuFlush (a : Accu) (b : Buf) : Accu × Buf :=
  let nbytes := min (a.n >>> 3) (b.bw - b.fw)
  let (a, b) := flushLoop nbytes { a with n := a.n - 8 * nbytes } b
  (if a.n ≥ 8 then { a with n := 0 } else a, b)

/-- `ac_put`, src/bits.c:159-163. -/
def acPut (b : Buf) (byte : Int) : Buf :=
  if b.fw < b.data.length then { b with data := b.data.set b.fw (byteOf byte), fw := b.fw + 1 }
  else b

/-- Loops `for ( ; carry_count > ..; carry_count--) ac_put(..)`, src/bits.c:178-179, 231-232. -/
def acPutN : Nat → Int → Buf → Buf
  | 0, _, b => b
  | k + 1, byte, b => acPutN k byte (acPut b byte)

/-- `ac_shift`, src/bits.c:170-188. -/
def acShift (ac : Ac) (b : Buf) : Ac × Buf :=
  let (ac, b) :=
    if ac.low < 0xff0000 ∨ ac.carry ≠ 0 then
      let b := if 0 ≤ ac.cache then acPut b (ac.cache + ac.carry) else b
      let b := acPutN ac.carryCount (if ac.carry ≠ 0 then 0x00 else 0xff) b
      ({ ac with carryCount := 0, cache := ((ac.low >>> 16 : Nat) : Int), carry := 0 }, b)
    else ({ ac with carryCount := ac.carryCount + 1 }, b)
  ({ ac with low := (ac.low <<< 8) &&& 0xffffff }, b)

/-- `for (; nbits > 8; nbits -= 8) ac_shift(ac, buffer)`, src/bits.c:222-223; `nbits` is below
32, so that 4 iterations are enough. -/
def termLoop : Nat → Nat → Ac → Buf → Nat × Ac × Buf
  | 0, nbits, ac, b => (nbits, ac, b)
  | f + 1, nbits, ac, b =>
    if nbits > 8 then
      let (ac, b) := acShift ac b
      termLoop f (nbits - 8) ac b
    else (nbits, ac, b)

/-- `~mask` on 32 bits. -/
def not32 (x : Nat) : Nat := 0xffffffff ^^^ x

/-- Choice of the termination value, src/bits.c:199-220: `(nbits, val, carry)`. -/
def termVal (ac : Ac) : Nat × Nat × Nat :=
  let nbits := 25 - rangeBits ac
  let mask := 0xffffff >>> nbits
  let val := ac.low + mask
  let high := ac.low + ac.range
  let overVal := decide (val >>> 24 ≠ 0)
  let overHigh := decide (high >>> 24 ≠ 0)
  let val := (val &&& 0xffffff) &&& not32 mask
  let high := high &&& 0xffffff
  if overVal = overHigh then
    let (nbits, val) :=
      if val + mask ≥ high then
        let nbits := nbits + 1
        let mask := mask >>> 1
        (nbits, ((ac.low + mask) &&& 0xffffff) &&& not32 mask)
      else (nbits, val)
    (nbits, val, ac.carry ||| (if val < ac.low then 1 else 0))
  else (nbits, val, ac.carry)

/-- `ac_terminate`, src/bits.c:196-241. -/
def acTerminate (ac : Ac) (b : Buf) : Ac × Buf :=
  let (nbits, val, carry) := termVal ac
  let ac := { ac with low := val, carry := carry }
  let (nbits, ac, b) := termLoop 4 nbits ac b
  let (ac, b) := acShift ac b
  let endVal : Int := ac.cache >>> (8 - nbits)
  let (endVal, b) :=
    if ac.carryCount ≠ 0 then
      let b := acPut b ac.cache
      let b := acPutN (ac.carryCount - 1) 0xff b
      ((if nbits < 8 then 0 else 0xff : Int), b)
    else (endVal, b)
  let last := (b.data.getD b.fw 0 &&& (0xff >>> nbits)) ||| byteOf (endVal * 2 ^ (8 - nbits))
  let b := if b.fw < b.data.length then { b with data := b.data.set b.fw last } else b
  (ac, b)

/-- `lc3_put_bits_generic`, src/bits.c:265-283. -/
def putBitsGeneric (b : Bits) (v n : Nat) : Bits :=
  let n1 := min (32 - b.accu.n) n
  let accu := if n1 ≠ 0 then
      { b.accu with v := b.accu.v ||| ((v <<< b.accu.n) % 2 ^ 32), n := 32
                    ub := b.accu.ub || decide (32 ≤ b.accu.n) }
    else b.accu
  let (accu, buf) := accuFlush accu b.buf
  { b with buf := buf
           accu := { accu with v := v >>> n1, n := n - n1
                               ub := accu.ub || decide (32 ≤ n1) } }

/-- `lc3_put_bits`, src/bits.h:218-229. -/
def putBits (b : Bits) (v n : Nat) : Bits :=
  if b.accu.n + n ≤ 32 then
    { b with accu := { b.accu with v := b.accu.v ||| ((v <<< b.accu.n) % 2 ^ 32)
                                   n := b.accu.n + n
                                   ub := b.accu.ub || decide (32 ≤ b.accu.n) } }
  else putBitsGeneric b v n

/-- `lc3_put_bit`, src/bits.h:210-213. -/
def putBit (b : Bits) (v : Nat) : Bits := putBits b v 1

/-- `lc3_ac_write_renorm`, src/bits.c:288-294. Two iterations are enough for a non-null range;
the loop is endless on a null range. -/
def writeRenorm : Nat → Ac → Buf → Ac × Buf
  | 0, ac, b => ({ ac with ub := ac.ub || decide (ac.range < 0x10000) }, b)
  | f + 1, ac, b =>
    if ac.range < 0x10000 then
      let (ac, b) := acShift ac b
      writeRenorm f { ac with range := (ac.range <<< 8) % 2 ^ 32 } b
    else (ac, b)

/-- `lc3_put_symbol`, src/bits.h:258-273. -/
def putSymbol (b : Bits) (m : AcModel) (s : Nat) : Bits :=
  let range := b.ac.range >>> 10
  let low := (b.ac.low + range * (m.sym s).low) % 2 ^ 32
  let ac := { b.ac with
    low := low &&& 0xffffff
    range := (range * (m.sym s).range) % 2 ^ 32
    carry := b.ac.carry ||| (low >>> 24) }
  let (ac, buf) := if ac.range < 0x10000 then writeRenorm 3 ac b.buf else (ac, b.buf)
  { b with ac := ac, buf := buf }

/-- Loop of `lc3_flush_bits`, src/bits.c:253-254: `n` bits remain to be padded. The count of
iterations is at most `n`. -/
def padLoop : Nat → Nat → Bits → Bits
  | 0, _, b => b
  | f + 1, n, b => if n = 0 then b else padLoop f (n - 32) (putBits b 0 (min n 32))

/-- `lc3_flush_bits`, src/bits.c:246-259. -/
def flushBits (b : Bits) : Bits :=
  let nleft : Int := (b.buf.bw : Int) - b.buf.fw
  let n := (8 * nleft - b.accu.n).toNat
  let b := padLoop n n b
  let (accu, buf) := accuFlush b.accu b.buf
  let (ac, buf) := acTerminate b.ac buf
  { b with accu := accu, buf := buf, ac := ac }

/-! ### Reading -/

/-- `ac_get`, src/bits.c:306-309. -/
def acGet (b : Buf) : Nat × Buf :=
  if b.fw < b.data.length then (b.data.getD b.fw 0, { b with fw := b.fw + 1 }) else (0, b)

/-- Loop of `accu_load`, src/bits.c:323-326. -/
def loadLoop : Nat → Accu → Buf → Accu × Buf
  | 0, a, b => (a, b)
  | k + 1, a, b =>
    loadLoop k { a with v := (a.v >>> 8) ||| (b.data.getD (b.bw - 1) 0 <<< 24) }
      { b with bw := b.bw - 1
               ub := b.ub || decide (b.bw = 0) || decide (b.data.length < b.bw) }

/-- `v >> n` on 32 bits. -/
def Accu.shr (a : Accu) : Nat :=
  if a.n < 32 then a.v >>> a.n else a.sh32 a.v % 2 ^ 32

/-- `accu_load`, src/bits.c:316-333. -/
def accuLoad (a : Accu) (b : Buf) : Accu × Buf :=
  let nbytes := min (a.n >>> 3) b.bw
  let (a, b) := loadLoop nbytes { a with n := a.n - 8 * nbytes } b
  (if a.n ≥ 8 then
    { a with nover := min (a.nover + a.n) 32, v := a.shr, n := 0
             ub := a.ub || decide (32 ≤ a.n) }
   else a, b)

/-- `lc3_get_bits_generic`, src/bits.c:339-364. The mask `(1u << n) - 1` is a reduction modulo
`2^n`; shift counts of 32 or more raise the flag. -/
def getBitsGeneric (b : Bits) (n : Nat) : Nat × Bits :=
  let (accu, buf) := accuLoad b.accu b.buf
  let n1 := min (32 - accu.n) n
  let v := (accu.v >>> accu.n) % 2 ^ n1
  let accu := { accu with n := accu.n + n1
                          ub := accu.ub || decide (32 ≤ accu.n) || decide (32 ≤ n1) }
  let n2 := n - n1
  if n2 ≠ 0 then
    let (accu, buf) := accuLoad accu buf
    (v ||| ((((accu.v >>> accu.n) % 2 ^ n2) <<< n1) % 2 ^ 32),
      { b with buf := buf
               accu := { accu with n := accu.n + n2
                                   ub := accu.ub || decide (32 ≤ accu.n) || decide (32 ≤ n2) } })
  else (v, { b with buf := buf, accu := accu })

/-- `lc3_get_bits`, src/bits.h:242-253. -/
def getBits (b : Bits) (n : Nat) : Nat × Bits :=
  if b.accu.n + n ≤ 32 then
    ((b.accu.v >>> b.accu.n) % 2 ^ n,
      { b with accu := { b.accu with n := b.accu.n + n
                                     ub := b.accu.ub || decide (32 ≤ b.accu.n) ||
                                           decide (32 ≤ n) } })
  else getBitsGeneric b n

/-- `lc3_get_bit`, src/bits.h:234-237. -/
def getBit (b : Bits) : Nat × Bits := getBits b 1

/-- `lc3_ac_read_renorm`, src/bits.c:369-375. -/
def readRenorm : Nat → Ac → Buf → Ac × Buf
  | 0, ac, b => ({ ac with ub := ac.ub || decide (ac.range < 0x10000) }, b)
  | f + 1, ac, b =>
    if ac.range < 0x10000 then
      let (x, b) := acGet b
      readRenorm f { ac with low := ((ac.low <<< 8) ||| x) &&& 0xffffff
                             range := (ac.range <<< 8) % 2 ^ 32 } b
    else (ac, b)

/-- Binary search of `lc3_get_symbol`, src/bits.h:290-298, for a given value of `range`. -/
def searchSymbol (m : AcModel) (low range : Nat) : Nat :=
  if low < range * (m.sym 16).low then
    let s := 8
    let s := if low < range * (m.sym s).low then s - 4 else s + 4
    let s := if low < range * (m.sym s).low then s - 2 else s + 2
    let s := if low < range * (m.sym s).low then s - 1 else s + 1
    if low < range * (m.sym s).low then s - 1 else s
  else 16

/-- `lc3_get_symbol`, src/bits.h:278-307. -/
def getSymbol (b : Bits) (m : AcModel) : Nat × Bits :=
  let range := (b.ac.range >>> 10) &&& 0xffff
  let error := b.ac.error || decide (b.ac.low ≥ (range <<< 10))
  let low := if error then 0 else b.ac.low
  let s := searchSymbol m low range
  let ac := { b.ac with
    error := error
    low := (low + 2 ^ 32 - range * (m.sym s).low) % 2 ^ 32
    range := (range * (m.sym s).range) % 2 ^ 32 }
  let (ac, buf) := if ac.range < 0x10000 then readRenorm 3 ac b.buf else (ac, b.buf)
  (s, { b with ac := ac, buf := buf })

/-! ### Setup -/

/-- `lc3_setup_bits` with `LC3_BITS_MODE_WRITE`, src/bits.c:80-94. -/
def setupWrite (data : List Nat) : Bits where
  rd := false
  ac := { low := 0, range := 0xffffff, cache := -1, carry := 0, carryCount := 0
          error := false, ub := false }
  accu := { v := 0, n := 0, nover := 0, sh32 := fun v => v, ub := false }
  buf := { data := data, fw := 0, bw := data.length, ub := false }

/-- `lc3_setup_bits` with `LC3_BITS_MODE_READ`, src/bits.c:80-109. -/
def setupRead (sh32 : Nat → Nat) (data : List Nat) : Bits :=
  let buf : Buf := { data := data, fw := 0, bw := data.length, ub := false }
  let (x0, buf) := acGet buf
  let (x1, buf) := acGet buf
  let (x2, buf) := acGet buf
  let accu : Accu := { v := 0, n := 32, nover := 0, sh32 := sh32, ub := false }
  let (accu, buf) := accuLoad accu buf
  { rd := true
    ac := { low := ((x0 <<< 16) ||| (x1 <<< 8)) ||| x2, range := 0xffffff, cache := -1, carry := 0
            carryCount := 0, error := false, ub := false }
    accu := accu
    buf := buf }

/-! ### Programs -/

/-- A write operation. -/
inductive Op where
  | bits (v n : Nat)
  | sym (m : AcModel) (s : Nat)

/-- Execute a write operation. -/
def Op.put (b : Bits) : Op → Bits
  | .bits v n => putBits b v n
  | .sym m s => putSymbol b m s

/-- Execute a sequence of write operations. -/
def putOps (b : Bits) (ops : List Op) : Bits := ops.foldl Op.put b

/-- The data written by a sequence of operations in a buffer of initial content `data`. -/
def encodeOps (data : List Nat) (ops : List Op) : List Nat :=
  (flushBits (putOps (setupWrite data) ops)).buf.data

end LC3
