import Verif.Model.CliFile
/-!
Model of the self-test of xxhsum, cli/xsum_sanity_check.c: known answers for all hash functions, one-shot and streaming.

`exit(1)` after a wrong result is `Res.exit 1`. Simplifications: the messages and the counter `nbTests` (used in messages
only) are left out; `XXH*_createState` delivers a state object with arbitrary contents (the code asserts that the
allocation succeeds), so freeing it is left out too; `XXH3_128bits_update` is `XXH3_64bits_update` (xxhash.h:6914-6918).
A pointer into the test buffer carries exactly the bytes the callee is told about.
-/
namespace XXH.Model.SelfTest
open Cli

/-- `PRIME32`, `PRIME64`, cli/xsum_sanity_check.c:38-39 (64-bit use) -/
def PRIME32 : W64 := 2654435761
@[inherit_doc PRIME32] def PRIME64 : W64 := 11400714785074694797

/-- The loop of `XSUM_fillTestBuffer`, cli/xsum_sanity_check.c:53-56 -/
def fillLoop : Nat → W64 → List Byte
  | 0, _ => []
  | n + 1, byteGen => (byteGen >>> 56).setWidth 8 :: fillLoop n (byteGen * PRIME64)

/-- `XSUM_fillTestBuffer`, cli/xsum_sanity_check.c:46-57 -/
def fillTestBuffer (len : Nat) : List Byte := fillLoop len PRIME32

/-- `XSUM_testdata32_t`, cli/xsum_sanity_check.c:75-79 -/
structure TestData32 where
  len : Nat
  seed : W32
  Nresult : W32

/-- `XSUM_testdata64_t`, cli/xsum_sanity_check.c:81-85 -/
structure TestData64 where
  len : Nat
  seed : W64
  Nresult : W64

/-- `XSUM_testdata128_t`, cli/xsum_sanity_check.c:87-91 -/
structure TestData128 where
  len : Nat
  seed : W64
  Nresult : H128

/-- `XSUM_testdata_sample_t`, cli/xsum_sanity_check.c:93-98 -/
structure TestDataSample where
  seedLen : Nat
  secretLen : Nat
  byte : List Byte

/-- `XSUM_XXH32_testdata`, cli/xsum_sanity_check.c:101-110 -/
def XXH32_testdata : List TestData32 := [
  ⟨0, 0, 0x02CC5D05⟩,
  ⟨0, PRIME32.setWidth 32, 0x36B78AE7⟩,
  ⟨1, 0, 0xCF65B03E⟩,
  ⟨1, PRIME32.setWidth 32, 0xB4545AA4⟩,
  ⟨14, 0, 0x1208E7E2⟩,
  ⟨14, PRIME32.setWidth 32, 0x6AF1D1FE⟩,
  ⟨222, 0, 0x5BD11DBD⟩,
  ⟨222, PRIME32.setWidth 32, 0x58803C5F⟩]

/-- `XSUM_XXH64_testdata`, cli/xsum_sanity_check.c:113-123 -/
def XXH64_testdata : List TestData64 := [
  ⟨0, 0, 0xEF46DB3751D8E999⟩,
  ⟨0, PRIME32, 0xAC75FDA2929B17EF⟩,
  ⟨1, 0, 0xE934A84ADB052768⟩,
  ⟨1, PRIME32, 0x5014607643A9B4C3⟩,
  ⟨4, 0, 0x9136A0DCA57457EE⟩,
  ⟨14, 0, 0x8282DCC4994E35C8⟩,
  ⟨14, PRIME32, 0xC3BD6BF63DEB6DF0⟩,
  ⟨222, 0, 0xB641AE8CB691C174⟩,
  ⟨222, PRIME32, 0x20CB8AB7AE10C14A⟩]

/-- `XSUM_XXH3_testdata`, cli/xsum_sanity_check.c:131-161 -/
def XXH3_testdata : List TestData64 := [
  ⟨0, 0, 0x2D06800538D394C2⟩,
  ⟨0, PRIME64, 0xA8A6B918B2F0364A⟩,
  ⟨1, 0, 0xC44BDFF4074EECDB⟩,
  ⟨1, PRIME64, 0x032BE332DD766EF8⟩,
  ⟨6, 0, 0x27B56A84CD2D7325⟩,
  ⟨6, PRIME64, 0x84589C116AB59AB9⟩,
  ⟨12, 0, 0xA713DAF0DFBB77E7⟩,
  ⟨12, PRIME64, 0xE7303E1B2336DE0E⟩,
  ⟨24, 0, 0xA3FE70BF9D3510EB⟩,
  ⟨24, PRIME64, 0x850E80FC35BDD690⟩,
  ⟨48, 0, 0x397DA259ECBA1F11⟩,
  ⟨48, PRIME64, 0xADC2CBAA44ACC616⟩,
  ⟨80, 0, 0xBCDEFBBB2C47C90A⟩,
  ⟨80, PRIME64, 0xC6DD0CB699532E73⟩,
  ⟨195, 0, 0xCD94217EE362EC3A⟩,
  ⟨195, PRIME64, 0xBA68003D370CB3D9⟩,
  ⟨403, 0, 0xCDEB804D65C6DEA4⟩,
  ⟨403, PRIME64, 0x6259F6ECFD6443FD⟩,
  ⟨512, 0, 0x617E49599013CB6B⟩,
  ⟨512, PRIME64, 0x3CE457DE14C27708⟩,
  ⟨2048, 0, 0xDD59E2C3A5F038E0⟩,
  ⟨2048, PRIME64, 0x66F81670669ABABC⟩,
  ⟨2099, 0, 0xC6B9D9B3FC9AC765⟩,
  ⟨2099, PRIME64, 0x184F316843663974⟩,
  ⟨2240, 0, 0x6E73A90539CF2948⟩,
  ⟨2240, PRIME64, 0x757BA8487D1B5247⟩,
  ⟨2367, 0, 0xCB37AEB9E5D361ED⟩,
  ⟨2367, PRIME64, 0xD2DB3415B942B42A⟩]

/-- `XSUM_XXH3_withSecret_testdata`, cli/xsum_sanity_check.c:163-179 -/
def XXH3_withSecret_testdata : List TestData64 := [
  ⟨0, 0, 0x3559D64878C5C66C⟩,
  ⟨1, 0, 0x8A52451418B2DA4D⟩,
  ⟨6, 0, 0x82C90AB0519369AD⟩,
  ⟨12, 0, 0x14631E773B78EC57⟩,
  ⟨24, 0, 0xCDD5542E4A9D9FE8⟩,
  ⟨48, 0, 0x33ABD54D094B2534⟩,
  ⟨80, 0, 0xE687BA1684965297⟩,
  ⟨195, 0, 0xA057273F5EECFB20⟩,
  ⟨403, 0, 0x14546019124D43B8⟩,
  ⟨512, 0, 0x7564693DD526E28D⟩,
  ⟨2048, 0, 0xD32E975821D6519F⟩,
  ⟨2367, 0, 0x293FA8E5173BB5E7⟩,
  ⟨1920, 0, 0x751D2EC54BC6038B⟩]

/-- `XSUM_XXH128_testdata`, cli/xsum_sanity_check.c:181-209 -/
def XXH128_testdata : List TestData128 := [
  ⟨0, 0, ⟨0x6001C324468D497F, 0x99AA06D3014798D8⟩⟩,
  ⟨0, PRIME32, ⟨0x5444F7869C671AB0, 0x92220AE55E14AB50⟩⟩,
  ⟨1, 0, ⟨0xC44BDFF4074EECDB, 0xA6CD5E9392000F6A⟩⟩,
  ⟨1, PRIME32, ⟨0xB53D5557E7F76F8D, 0x89B99554BA22467C⟩⟩,
  ⟨6, 0, ⟨0x3E7039BDDA43CFC6, 0x082AFE0B8162D12A⟩⟩,
  ⟨6, PRIME32, ⟨0x269D8F70BE98856E, 0x5A865B5389ABD2B1⟩⟩,
  ⟨12, 0, ⟨0x061A192713F69AD9, 0x6E3EFD8FC7802B18⟩⟩,
  ⟨12, PRIME32, ⟨0x9BE9F9A67F3C7DFB, 0xD7E09D518A3405D3⟩⟩,
  ⟨24, 0, ⟨0x1E7044D28B1B901D, 0x0CE966E4678D3761⟩⟩,
  ⟨24, PRIME32, ⟨0xD7304C54EBAD40A9, 0x3162026714A6A243⟩⟩,
  ⟨48, 0, ⟨0xF942219AED80F67B, 0xA002AC4E5478227E⟩⟩,
  ⟨48, PRIME32, ⟨0x7BA3C3E453A1934E, 0x163ADDE36C072295⟩⟩,
  ⟨81, 0, ⟨0x5E8BAFB9F95FB803, 0x4952F58181AB0042⟩⟩,
  ⟨81, PRIME32, ⟨0x703FBB3D7A5F755C, 0x2724EC7ADC750FB6⟩⟩,
  ⟨222, 0, ⟨0xF1AEBD597CEC6B3A, 0x337E09641B948717⟩⟩,
  ⟨222, PRIME32, ⟨0xAE995BB8AF917A8D, 0x91820016621E97F1⟩⟩,
  ⟨403, 0, ⟨0xCDEB804D65C6DEA4, 0x1B6DE21E332DD73D⟩⟩,
  ⟨403, PRIME64, ⟨0x6259F6ECFD6443FD, 0xBED311971E0BE8F2⟩⟩,
  ⟨512, 0, ⟨0x617E49599013CB6B, 0x18D2D110DCC9BCA1⟩⟩,
  ⟨512, PRIME64, ⟨0x3CE457DE14C27708, 0x925D06B8EC5B8040⟩⟩,
  ⟨2048, 0, ⟨0xDD59E2C3A5F038E0, 0xF736557FD47073A5⟩⟩,
  ⟨2048, PRIME32, ⟨0x230D43F30206260B, 0x7FB03F7E7186C3EA⟩⟩,
  ⟨2240, 0, ⟨0x6E73A90539CF2948, 0xCCB134FBFA7CE49D⟩⟩,
  ⟨2240, PRIME32, ⟨0xED385111126FBA6F, 0x50A1FE17B338995F⟩⟩,
  ⟨2367, 0, ⟨0xCB37AEB9E5D361ED, 0xE89C0F6FF369B427⟩⟩,
  ⟨2367, PRIME32, ⟨0x6F5360AE69C2F406, 0xD23AAE4B76C31ECB⟩⟩]

/-- `XSUM_XXH128_withSecret_testdata`, cli/xsum_sanity_check.c:212-217 -/
def XXH128_withSecret_testdata : List TestData128 := [
  ⟨0, 0, ⟨0x005923CCEECBE8AE, 0x5F70F4EA232F1D38⟩⟩,
  ⟨1, 0, ⟨0x8A52451418B2DA4D, 0x3A66AF5A9819198E⟩⟩,
  ⟨6, 0, ⟨0x0B61C8ACA7D4778F, 0x376BD91B6432F36D⟩⟩,
  ⟨12, 0, ⟨0xAF82F6EBA263D7D8, 0x90A3C2D839F57D0F⟩⟩]

/-- `SECRET_SIZE_MAX`, cli/xsum_sanity_check.c:219 -/
def SECRET_SIZE_MAX : Nat := 9867

/-- `XSUM_XXH3_generateSecret_testdata`, cli/xsum_sanity_check.c:220-225 -/
def XXH3_generateSecret_testdata : List TestDataSample := [
  ⟨0, 192, [0xE7, 0x8C, 0x77, 0x77, 0x00]⟩,
  ⟨1, 240, [0x2B, 0x3E, 0xDE, 0xC1, 0x00]⟩,
  ⟨136 - 1, 277, [0xE8, 0x39, 0x6C, 0xCC, 0x7B]⟩,
  ⟨192 + 500, SECRET_SIZE_MAX, [0xD6, 0x1C, 0x41, 0x17, 0xB3]⟩]

/-- What is arbitrary: the build, the addresses of the objects, and the contents of fresh memory. -/
structure TestEnv where
  cfg : Cfg
  /-- address of `sanityBuffer` -/
  buffer : Nat
  /-- address of the local `secretBuffer`s (the secrets start one byte later) -/
  secretBuffer : Nat
  /-- contents of `secretBuffer + 1`, 192 bytes -/
  secretJunk : List Byte
  state32 : Model.XXH32.State
  state64 : Model.XXH64.State
  /-- memory of the XXH3 states before `XXH3_INITSTATE` -/
  state3 : Model.XXH3.State

/-- `XSUM_checkResult32`, `64`, `128`, cli/xsum_sanity_check.c:227-267 -/
def checkResult {α : Type} [DecidableEq α] (r1 r2 : α) : Res Unit := if r1 ≠ r2 then .exit 1 else .ok ()

/-- The first `len` bytes of the test buffer; `NULL` if `len` is 0 (as at cli/xsum_sanity_check.c:279-283). -/
def dataOf (e : TestEnv) (len : Nat) : Ptr :=
  if len = 0 then none else some ⟨e.buffer, (fillTestBuffer 2367).take len⟩

/-- `(const char*)data + p`, of which `l` bytes are used. -/
def plus (data : Ptr) (p l : Nat) : Ptr := data.map fun b => ⟨b.addr + p, (b.bytes.drop p).take l⟩

/-- `for (pos=0; pos<len; pos++) update(state, data + pos, 1);`, e.g. cli/xsum_sanity_check.c:294-295; the first
argument is `len - pos`. -/
def byByte {S : Type} (update : S → Ptr → Nat → Option (S × Err)) (data : Ptr) : Nat → Nat → S → Option S
  | 0, _, s => some s
  | n + 1, pos, s => do
    let (s, _) ← update s (plus data pos 1) 1
    byByte update data n (pos + 1) s

/-- `XSUM_testXXH32`, cli/xsum_sanity_check.c:270-298 -/
def testXXH32 (e : TestEnv) (t : TestData32) : Res Unit := do
  let data := dataOf e t.len
  let state := e.state32
  let r ← Res.of (Model.XXH32.XXH32 e.cfg data t.len t.seed)
  checkResult r t.Nresult
  let (state, _) ← Res.of (Model.XXH32.reset (some state) t.seed)
  let (state, _) ← Res.of (Model.XXH32.update e.cfg state data t.len)
  let r ← Res.of (Model.XXH32.digest e.cfg state)
  checkResult r t.Nresult
  let (state, _) ← Res.of (Model.XXH32.reset (some state) t.seed)
  let state ← Res.of (byByte (Model.XXH32.update e.cfg) data t.len 0 state)
  let r ← Res.of (Model.XXH32.digest e.cfg state)
  checkResult r t.Nresult

/-- `XSUM_testXXH64`, cli/xsum_sanity_check.c:300-328 -/
def testXXH64 (e : TestEnv) (t : TestData64) : Res Unit := do
  let data := dataOf e t.len
  let state := e.state64
  let r ← Res.of (Model.XXH64.XXH64 e.cfg data t.len t.seed)
  checkResult r t.Nresult
  let (state, _) ← Res.of (Model.XXH64.reset (some state) t.seed)
  let (state, _) ← Res.of (Model.XXH64.update e.cfg state data t.len)
  let r ← Res.of (Model.XXH64.digest e.cfg state)
  checkResult r t.Nresult
  let (state, _) ← Res.of (Model.XXH64.reset (some state) t.seed)
  let state ← Res.of (byByte (Model.XXH64.update e.cfg) data t.len 0 state)
  let r ← Res.of (Model.XXH64.digest e.cfg state)
  checkResult r t.Nresult

/-- `XSUM_rand`, cli/xsum_sanity_check.c:334-339: the number and the new value of the static `seed`. -/
def rand (seed : W64) : W32 × W64 :=
  let seed := seed * PRIME64
  ((seed >>> 40).setWidth 32, seed)

/-- The loop of `XSUM_XXH3_randomUpdate`, cli/xsum_sanity_check.c:352-363, from position `p` on; more than `fuel` rounds
are `none` (the theorem shows that this does not happen). -/
def randomUpdate (cfg : Cfg) (data : Ptr) (len : Nat) :
    Nat → Nat → W64 → Model.XXH3.State → Option (Model.XXH3.State × W64)
  | fuel, p, rnd, state =>
    if p < len then
      match fuel with
      | 0 => none
      | fuel + 1 => do
        let modulo := if len > 2 then len else 2
        let (n, rnd) := rand rnd
        let l := n.toNat % modulo
        let l := if p + l > len then len - p else l
        let (state, _) ← Model.XXH3.bits64_update cfg state (plus data p l) l
        randomUpdate cfg data len fuel (p + l) rnd state
    else some (state, rnd)

/-- Rounds allowed to one call of `XSUM_XXH3_randomUpdate`. -/
def maxRounds : Nat := 1000

/-- Reset, ingest, compare the 64-bit digest; the pattern of e.g. cli/xsum_sanity_check.c:407-409. -/
def stream64 (cfg : Cfg) (reset : Option (Option Model.XXH3.State × Err))
    (ingest : Model.XXH3.State → Option Model.XXH3.State) (Nresult : W64) : Res Model.XXH3.State := do
  let (state, _) ← Res.of reset
  let state ← Res.of state
  let state ← Res.of (ingest state)
  let r ← Res.of (Model.XXH3.bits64_digest cfg state)
  checkResult r Nresult
  return state

/-- The same with random ingestion, e.g. cli/xsum_sanity_check.c:412-414; also the new state of the generator. -/
def stream64R (cfg : Cfg) (reset : Option (Option Model.XXH3.State × Err)) (data : Ptr) (len : Nat) (rnd : W64)
    (Nresult : W64) : Res (Model.XXH3.State × W64) := do
  let (state, _) ← Res.of reset
  let state ← Res.of state
  let (state, rnd) ← Res.of (randomUpdate cfg data len maxRounds 0 rnd state)
  let r ← Res.of (Model.XXH3.bits64_digest cfg state)
  checkResult r Nresult
  return (state, rnd)

@[inherit_doc stream64]
def stream128 (cfg : Cfg) (reset : Option (Option Model.XXH3.State × Err))
    (ingest : Model.XXH3.State → Option Model.XXH3.State) (Nresult : H128) : Res Model.XXH3.State := do
  let (state, _) ← Res.of reset
  let state ← Res.of state
  let state ← Res.of (ingest state)
  let r ← Res.of (Model.XXH3.bits128_digest cfg state)
  checkResult r Nresult
  return state

@[inherit_doc stream64R]
def stream128R (cfg : Cfg) (reset : Option (Option Model.XXH3.State × Err)) (data : Ptr) (len : Nat) (rnd : W64)
    (Nresult : H128) : Res (Model.XXH3.State × W64) := do
  let (state, _) ← Res.of reset
  let state ← Res.of state
  let (state, rnd) ← Res.of (randomUpdate cfg data len maxRounds 0 rnd state)
  let r ← Res.of (Model.XXH3.bits128_digest cfg state)
  checkResult r Nresult
  return (state, rnd)

/-- Single ingestion. -/
def single (cfg : Cfg) (data : Ptr) (len : Nat) (state : Model.XXH3.State) : Option Model.XXH3.State := do
  let (state, _) ← Model.XXH3.bits64_update cfg state data len
  return state

/-- Byte by byte ingestion. -/
def bytewise (cfg : Cfg) (data : Ptr) (len : Nat) (state : Model.XXH3.State) : Option Model.XXH3.State :=
  byByte (Model.XXH3.bits64_update cfg) data len 0 state

/-- `secretBuffer + 1` with the given bytes. -/
def secretAt (e : TestEnv) (bytes : List Byte) : Ptr := some ⟨e.secretBuffer + 1, bytes⟩

/-- `memset(secret, 0x99, 9)` -/
def spoil (secret : List Byte) : List Byte := List.replicate 9 0x99 ++ secret.drop 9

/-- `XSUM_testXXH3`, cli/xsum_sanity_check.c:365-452; the result is the new state of the generator. -/
def testXXH3 (e : TestEnv) (rnd : W64) (t : TestData64) : Res W64 := do
  let len := t.len
  let seed := t.seed
  let data := dataOf e len
  let r ← Res.of (Model.XXH3.XXH3_64bits_withSeed e.cfg data len seed)
  checkResult r t.Nresult
  if seed = 0 then
    let r ← Res.of (Model.XXH3.XXH3_64bits e.cfg data len)
    checkResult r t.Nresult
  let secret ← Res.of (Model.XXH3.generateSecret_fromSeed e.cfg (secretAt e e.secretJunk) seed)
  let r ← Res.of (Model.XXH3.XXH3_64bits_withSecretandSeed e.cfg data len (secretAt e secret) 192 seed)
  checkResult r t.Nresult
  let secret := spoil secret
  if len ≤ 240 then
    let r ← Res.of (Model.XXH3.XXH3_64bits_withSecretandSeed e.cfg data len (secretAt e secret) 192 seed)
    checkResult r t.Nresult
  let state := Model.XXH3.INITSTATE e.state3
  let state ← stream64 e.cfg (Model.XXH3.reset_withSeed e.cfg (some state) seed) (single e.cfg data len) t.Nresult
  let (state, rnd) ← stream64R e.cfg (Model.XXH3.reset_withSeed e.cfg (some state) seed) data len rnd t.Nresult
  let state ← stream64 e.cfg (Model.XXH3.reset_withSeed e.cfg (some state) seed) (bytewise e.cfg data len) t.Nresult
  let secret ← Res.of (Model.XXH3.generateSecret_fromSeed e.cfg (secretAt e e.secretJunk) seed)
  let state ← stream64 e.cfg (Model.XXH3.reset_withSecretandSeed (some state) (secretAt e secret) 192 seed)
    (single e.cfg data len) t.Nresult
  if len ≤ 240 then
    let secret := spoil secret
    let _ ← stream64 e.cfg (Model.XXH3.reset_withSecretandSeed (some state) (secretAt e secret) 192 seed)
      (single e.cfg data len) t.Nresult
  return rnd

/-- `XSUM_testXXH3_withSecret`, cli/xsum_sanity_check.c:455-509 -/
def testXXH3_withSecret (e : TestEnv) (secret : Ptr) (secretSize : Nat) (rnd : W64) (t : TestData64) : Res W64 := do
  let len := t.len
  let data := dataOf e len
  let r ← Res.of (Model.XXH3.XXH3_64bits_withSecret e.cfg data len secret secretSize)
  checkResult r t.Nresult
  if len > 240 then
    let r ← Res.of (Model.XXH3.XXH3_64bits_withSecretandSeed e.cfg data len secret secretSize 0)
    checkResult r t.Nresult
  let state := Model.XXH3.INITSTATE e.state3
  let state ← stream64 e.cfg (Model.XXH3.reset_withSecret (some state) secret secretSize) (single e.cfg data len)
    t.Nresult
  let (state, rnd) ← stream64R e.cfg (Model.XXH3.reset_withSecret (some state) secret secretSize) data len rnd t.Nresult
  let state ← stream64 e.cfg (Model.XXH3.reset_withSecret (some state) secret secretSize) (bytewise e.cfg data len)
    t.Nresult
  if len > 240 then
    let _ ← stream64 e.cfg (Model.XXH3.reset_withSecretandSeed (some state) secret secretSize 17) (single e.cfg data len)
      t.Nresult
  return rnd

/-- `XSUM_testXXH128`, cli/xsum_sanity_check.c:511-604 -/
def testXXH128 (e : TestEnv) (rnd : W64) (t : TestData128) : Res W64 := do
  let len := t.len
  let seed := t.seed
  let data := dataOf e len
  let r ← Res.of (Model.XXH3.XXH3_128bits_withSeed e.cfg data len seed)
  checkResult r t.Nresult
  let r ← Res.of (Model.XXH3.XXH128 e.cfg data len seed)
  checkResult r t.Nresult
  if seed = 0 then
    let r ← Res.of (Model.XXH3.XXH3_128bits e.cfg data len)
    checkResult r t.Nresult
  let secret ← Res.of (Model.XXH3.generateSecret_fromSeed e.cfg (secretAt e e.secretJunk) seed)
  let r ← Res.of (Model.XXH3.XXH3_128bits_withSecretandSeed e.cfg data len (secretAt e secret) 192 seed)
  checkResult r t.Nresult
  let secret := spoil secret
  if len ≤ 240 then
    let r ← Res.of (Model.XXH3.XXH3_128bits_withSecretandSeed e.cfg data len (secretAt e secret) 192 seed)
    checkResult r t.Nresult
  let state := Model.XXH3.INITSTATE e.state3
  let state ← stream128 e.cfg (Model.XXH3.reset_withSeed e.cfg (some state) seed) (single e.cfg data len) t.Nresult
  let (state, rnd) ← stream128R e.cfg (Model.XXH3.reset_withSeed e.cfg (some state) seed) data len rnd t.Nresult
  let state ← stream128 e.cfg (Model.XXH3.reset_withSeed e.cfg (some state) seed) (bytewise e.cfg data len) t.Nresult
  let secret ← Res.of (Model.XXH3.generateSecret_fromSeed e.cfg (secretAt e e.secretJunk) seed)
  let state ← stream128 e.cfg (Model.XXH3.reset_withSecretandSeed (some state) (secretAt e secret) 192 seed)
    (single e.cfg data len) t.Nresult
  if len ≤ 240 then
    let secret := spoil secret
    let _ ← stream128 e.cfg (Model.XXH3.reset_withSecretandSeed (some state) (secretAt e secret) 192 seed)
      (single e.cfg data len) t.Nresult
  return rnd

/-- `XSUM_testXXH128_withSecret`, cli/xsum_sanity_check.c:606-657 -/
def testXXH128_withSecret (e : TestEnv) (secret : Ptr) (secretSize : Nat) (rnd : W64) (t : TestData128) : Res W64 := do
  let len := t.len
  let data := dataOf e len
  let r ← Res.of (Model.XXH3.XXH3_128bits_withSecret e.cfg data len secret secretSize)
  checkResult r t.Nresult
  if len > 240 then
    let r ← Res.of (Model.XXH3.XXH3_128bits_withSecretandSeed e.cfg data len secret secretSize 0)
    checkResult r t.Nresult
  let state := Model.XXH3.INITSTATE e.state3
  let state ← stream128 e.cfg (Model.XXH3.reset_withSecret (some state) secret secretSize) (single e.cfg data len)
    t.Nresult
  let (state, rnd) ← stream128R e.cfg (Model.XXH3.reset_withSecret (some state) secret secretSize) data len rnd
    t.Nresult
  let state ← stream128 e.cfg (Model.XXH3.reset_withSecret (some state) secret secretSize) (bytewise e.cfg data len)
    t.Nresult
  if len > 240 then
    let _ ← stream128 e.cfg (Model.XXH3.reset_withSecretandSeed (some state) secret secretSize 0) (single e.cfg data len)
      t.Nresult
  return rnd

/-- `sampleIndex`, cli/xsum_sanity_check.c:662 -/
def sampleIndex : List Nat := [0, 62, 131, 191, 241]

/-- `XSUM_testSecretGenerator`, cli/xsum_sanity_check.c:659-680. The buffer is zeroed first. -/
def testSecretGenerator (e : TestEnv) (t : TestDataSample) : Res Unit := do
  let (_, secretBuffer) ← Res.of (Model.XXH3.generateSecret e.cfg
    (some ⟨e.secretBuffer, List.replicate SECRET_SIZE_MAX 0⟩) t.secretLen
    (some ⟨e.buffer, (fillTestBuffer 2367).take t.seedLen⟩) t.seedLen)
  let samples := sampleIndex.map fun i => secretBuffer.getD i 0
  if samples ≠ t.byte then .exit 1

/-- The loops of `XSUM_sanityCheck` whose tests draw random numbers. -/
def testAll {T : Type} (test : W64 → T → Res W64) : W64 → List T → Res W64
  | rnd, [] => .ok rnd
  | rnd, t :: ts => do
    let rnd ← test rnd t
    testAll test rnd ts

/-- `XSUM_sanityCheck`, cli/xsum_sanity_check.c:688-731; the generator starts with the static value `PRIME32` (336). -/
def sanityCheck (e : TestEnv) : Res Unit := do
  let secret : Ptr := some ⟨e.buffer + 7, ((fillTestBuffer 2367).drop 7).take (136 + 11)⟩
  let secretSize := 136 + 11
  XXH32_testdata.forM (testXXH32 e)
  XXH64_testdata.forM (testXXH64 e)
  let rnd ← testAll (testXXH3 e) PRIME32 XXH3_testdata
  let rnd ← testAll (testXXH3_withSecret e secret secretSize) rnd XXH3_withSecret_testdata
  let rnd ← testAll (testXXH128 e) rnd XXH128_testdata
  let _ ← testAll (testXXH128_withSecret e secret secretSize) rnd XXH128_withSecret_testdata
  XXH3_generateSecret_testdata.forM (testSecretGenerator e)

end XXH.Model.SelfTest
