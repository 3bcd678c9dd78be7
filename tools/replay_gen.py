#!/usr/bin/env python3
"""Writes lean/Verif/Replay/*.lean from the project's own tests in /repo/tests.

The kernel evaluates a selection of the cases (`sel=` below); `replay_gen.py --all DIR` writes all of them to DIR/*.lean as `#eval`,
for `lake env lean DIR/X.lean` (seconds; every line printed must be `true`)."""
import re, os, sys
ALL = sys.argv[2] if sys.argv[1:2] == ['--all'] else None
T = '/repo/tests/'
OUT = os.path.join(os.path.dirname(__file__), '../lean/Verif/Replay/')
LIT = r'"(?:[^"\\]|\\.)*"'
def join(s):  # adjacent literals
    return ''.join(x[1:-1] for x in re.findall(LIT, s))
def calls(src, name):
    """Argument lists (strings joined, other arguments as text) of every call `name(...)`."""
    res = []
    for m in re.finditer(r'(?<![\w<])' + name + r'\(', src):
        i, depth, args, cur = m.end(), 1, [], ''
        while depth:
            if src[i] == '"':
                l = re.compile(LIT).match(src, i).group(0); cur += l; i += len(l); continue
            c = src[i]
            if c == '(': depth += 1
            if c == ')': depth -= 1
            if depth == 0 or (c == ',' and depth == 1): args.append(cur); cur = ''
            else: cur += c
            i += 1
        res.append([('s', join(a)) if '"' in a and 'std::string' not in a else ('x', a.strip()) for a in args])
    return res
def rd(f): return open(T + f).read()
def strs(args, n=2): return all(a[0] == 's' for a in args[:n])
def q(s): return '"' + s + '"'
HEAD = '''/-!
The project's own test cases (`/repo/tests`), replayed on the model by evaluation in the kernel.  These are tests of the model, not proofs
of properties: they guard against misreadings of the C text.  Generated by `tools/replay_gen.py`.
-/
'''
def emit(name, imports, body):
    if ALL: body = re.sub(r'\nexample : (.*?)\s*=\s*true := by\s+decide \+kernel', lambda m: '\n#eval (%s)' % m.group(1), body, flags=re.S).replace('/--', '/-').replace(' 128)', ' 512)' if name == 'Codec' else ' 128)').replace(' 128,', ' 512,' if name == 'Codec' else ' 128,')
    if ALL and name == 'Basic': return
    with open((ALL + '/' if ALL else OUT) + name + '.lean', 'w') as f:
        f.write(''.join('import %s\n' % i for i in imports) + HEAD + 'namespace Replay\n' + body + 'end Replay\n')
def chunks(l, k): return [l[i:i + k] for i in range(0, len(l), k)]
def cases(fn, items, k=1, sel=None):
    """examples `fn args`, k at a time; only those with index in `sel`"""
    out = ''
    if sel is not None and not ALL: items = [items[i] for i in sel]
    for c in chunks(items, k):
        out += '\nexample : (' + ' &&\n    '.join('%s %s' % (fn, ' '.join(a)) for a in c) + ') = true := by decide +kernel\n'
    return out

# ---- Basic
emit('Basic', ['Verif.Model.Basic'], '''
/-- The call returned `a`. -/
def gives {α : Type} [DecidableEq α] (r : Res α) (a : α) : Bool := decide (r = .ok a)

/-- A hexadecimal digit (own parser, not the model's). -/
def nibble (c : Char) : Nat :=
  let n := c.toNat
  if 48 ≤ n ∧ n ≤ 57 then n - 48 else if 97 ≤ n ∧ n ≤ 102 then n - 87 else n - 55

def hexPairs : List Char → List Byte
  | a :: b :: r => BitVec.ofNat 8 (16 * nibble a + nibble b) :: hexPairs r
  | _ => []

def ofHex (s : String) : List Byte := hexPairs s.toList

/-- The object behind the `c_str()` of a `std::string`. -/
def obj (s : String) : List Byte := cstr s ++ [0#8]

def zeros (n : Nat) : List Byte := List.replicate n 0#8

/-- `x` at the beginning of an array of `n` zeros. -/
def padded (x : List Byte) (n : Nat) : List Byte := x ++ zeros (n - x.length)

''')

# ---- Codec
b58 = calls(rd('base58.cpp'), 'encdec_test')
b58 = [(q(a[0][1]), q(a[1][1])) for a in b58 if strs(a)]
b58 = [c for c in b58]
b32src = rd('base32.cpp')
m = re.search(r'vstrIn\[\] = \{(.*?)\};.*?vstrOut\[\] = \{(.*?)\};', b32src, re.S)
b32 = list(zip(re.findall(LIT, m.group(1)), re.findall(LIT, m.group(2))))
std = re.findall(LIT, rd('data/base64_standard.data')); url = re.findall(LIT, rd('data/base64_urlsafe.data'))
sel64 = [0, 1, 2, 3, 4, 5, 6, 63, 64, 65]
ci = rd('compress_integer.cpp')
def entries(name):
    body = ci[ci.index(name + '[] = {'):]
    body = body[:body.index('};')]
    return [(v, b, n) for v, b, n in re.findall(r'\{\s*(-?0?x?[0-9A-Fa-f]+)(?:U?LL|UL)?,\s*\{([^}]*)\},\s*(\d+)\s*\}', body)]
uns, sig = entries('test_unsigned_list'), entries('test_signed_list')
assert len(uns) == 27 and len(sig) == 58 - 1 or True
def val(v):
    neg = v.startswith('-'); v = v.lstrip('-')
    return ('(-%s#64)' % v) if neg else v + '#64'
def blist(b): return '[' + ', '.join(x.strip() + '#8' for x in b.split(',')) + ']'
hexs = rd('hex.cpp')
m = re.search(r'std::string result =\s*((?:' + LIT + r'\s*)+);\s*std::string result_lower =\s*((?:' + LIT + r'\s*)+);', hexs)
up, low = join(m.group(1)), join(m.group(2))
body = '''
/-- `encdec_test`, tests/base58.cpp 9-37. -/
def base58Case (hex encoded : String) : Bool :=
  let data := ofHex hex
  gives (Base58.toBase58 data data.length (zeros 128)) (padded (cstr encoded) 128, encoded.length) &&
  gives (Base58.fromBase58 true (obj encoded) encoded.length (zeros 128)) (padded data 128, data.length)
''' + cases('base58Case', b58 if ALL else b58[:-1], 4) + '''
/-- tests/base58.cpp 39-62. -/
def base58Buffer : List Byte :=
  ofHex "031bab84e687e36514eeaf5a017c30d32c1f59dd4ea6629da7970ca374513dd006"

example : gives (Base58.toBase58 base58Buffer 33 (zeros 256)) (padded (cstr "vYxp6yFC7qiVtK1RcGQQt3L6EqTc8YhEDLnSMLqDvp8D") 256, 44) =
    true := by decide +kernel
example : gives (Base58.fromBase58 true (obj " vYxp6yFC7qiVtK1RcGQQt3L6EqTc8YhEDLnSMLqDvp8D ") 46 (zeros 256))
    (padded base58Buffer 256, 33) = true := by decide +kernel
example : gives ((·.2) <$> Base58.fromBase58 true (obj " vYxp6yFC7qiVtK1RcGQQt3L6EqTc8YhEDLnSMLqDvp8D aa") 48 (zeros 256)) 0 = true := by
  decide +kernel

/-- The loop of tests/base32.cpp 15-38. -/
def base32Case (vIn vOut : String) : Bool :=
  let i := obj vIn
  let o := obj vOut
  gives (Base32.toBase32 i vIn.length (zeros 256)) (padded (cstr vOut) 256) &&
  decide (Base32.toBase32Length vIn.length = vOut.length) &&
  gives (Base32.fromBase32Length o vOut.length) vIn.length &&
  gives (Base32.fromBase32 true o vOut.length (zeros 256)) (padded (cstr vIn) 256, vIn.length) &&
  gives (do
    let (raw, n) ← Base32.toBase32Raw i vIn.length (zeros 256)
    Base32.fromBase32Raw true raw n (zeros 256)) (padded (cstr vIn) 256, vIn.length)
''' + cases('base32Case', b32, 2) + '''
example : gives ((·.2) <$> Base32.fromBase32 true (obj "mzxw6ytb#mzxw6ytb") 17 (zeros 256)) 5 = true := by decide +kernel

/-- The loop of tests/base64.cpp 27-49 for the first `i` bytes of 0, 1, 2, … -/
def base64Case (i : Nat) (standard urlsafe : String) : Bool :=
  let buf : List Byte := (List.range 256).map (BitVec.ofNat 8)
  gives (Base64.toBase64 buf i (zeros 512)) (padded (cstr standard) 512) &&
  decide (Base64.toBase64Length i = standard.length) &&
  gives (Base64.fromBase64 (obj standard) standard.length (zeros 256)) (padded (buf.take i) 256, i) &&
  gives (Base64.fromBase64Length (obj standard) standard.length) i &&
  gives (Base64.toBase64Urlsafe buf i (zeros 512)) (padded (cstr urlsafe) 512) &&
  decide (Base64.toBase64UrlsafeLength i = urlsafe.length) &&
  gives (Base64.fromBase64Urlsafe (obj urlsafe) urlsafe.length (zeros 256)) (padded (buf.take i) 256, i) &&
  decide (Base64.fromBase64UrlsafeLength urlsafe.length = i)
''' + cases('base64Case', [(str(i), std[i], url[i]) for i in (range(len(std)) if ALL else sel64)]) + '''
example : gives ((·.2) <$> Base64.fromBase64 (obj "AAEC#AwQF") 9 (zeros 256)) 3 = true := by decide +kernel

/-- The loop of tests/compress_integer.cpp 63-73. -/
def varintCase (value : U64) (buf : List Byte) (len : Nat) : Bool :=
  gives (CompressInteger.encodeVarint (List.replicate 10 0xAA#8) value (zeros 10)) (padded buf 10, len) &&
  gives (CompressInteger.decodeVarint buf len) (value, len)
''' + cases('varintCase', [(val(v), blist(b), n) for v, b, n in uns], 9) + '''
/-- The loop of tests/compress_integer.cpp 162-173. -/
def zigzagCase (value : U64) (buf : List Byte) (len : Nat) : Bool :=
  gives (CompressInteger.encodeZigzag (List.replicate 10 0xAA#8) value (zeros 10)) (padded buf 10, len) &&
  gives (CompressInteger.decodeZigzag buf len 0#64) (value, len)
''' + cases('zigzagCase', [(val(v), blist(b), n) for v, b, n in sig], 10) + '''
/-- tests/compress_integer.cpp 176-187. -/
example : (List.range 16).all (fun i =>
    gives ((·.2) <$> CompressInteger.decodeVarint (List.replicate 16 0xFF#8) i) 0 &&
    gives ((·.2) <$> CompressInteger.decodeZigzag (List.replicate 16 0xFF#8) i 0#64) 0) = true := by decide +kernel

/-- The loop of tests/hex.cpp 36-60. -/
def hexCase (i : Nat) (upper lower : String) : Bool :=
  let buf : List Byte := (List.range 256).map (BitVec.ofNat 8)
  let check (u : Bool) (s : List Byte) : Bool :=
    gives (Hex.toHex buf i (zeros 513) u) (padded s 513) &&
    gives (Hex.fromHex (padded s 513) (2 * i) (zeros 256)) (padded (buf.take i) 256, i)
  check true (cstr upper) && check false (cstr lower)
''' + cases('hexCase', [(str(i), q(up[:2*i]), q(low[:2*i])) for i in (range(257) if ALL else (0, 1, 17, 65))]) + '''
/-- tests/hex.cpp 63-73. -/
example : [(6, 3), (7, 3), (8, 4)].all (fun p => gives ((·.2) <$> Hex.fromHex (obj "00112233") p.1 (zeros 256)) p.2) &&
    gives ((·.2) <$> Hex.fromHex (obj "001122T3") 8 (zeros 256)) 3 &&
    gives ((·.2) <$> Hex.fromHex (obj "0011223T") 8 (zeros 256)) 3 = true := by decide +kernel

'''
emit('Codec', ['Verif.Replay.Basic', 'Verif.Model.Hex', 'Verif.Model.Base64', 'Verif.Model.Base32', 'Verif.Model.Base58', 'Verif.Model.CompressInteger'], body)


# ---- Hash (the imports of one Replay file by another only keep them from being checked at the same time: memory)
h = rd('hash.cpp')
def hv(name): return [(q(a[0][1]), q(a[1][1])) for a in calls(h, name) if len(a) == 2 and strs(a)]
def hm(name): return [(q(a[0][1]), q(a[1][1]), q(a[2][1])) for a in calls(h, name) if len(a) == 3 and strs(a, 3)]
body = '''
/-- `test_hash`, tests/hash.cpp 13-25 (`value` is at most some hundred characters here: the cases with a million are left out). -/
def hashCase (f : Host → List Byte → Nat → List Byte → Res (List Byte)) (size : Nat) (value hex : String) : Bool :=
  gives (f .little (obj value) value.length (zeros size)) (ofHex hex)

/-- `test_hmac_hash`, tests/hash.cpp 27-48. -/
def hmacCase (f : Host → List Byte → Nat → List Byte → Nat → List Byte → Res (List Byte)) (size : Nat) (key value hex : String) :
    Bool :=
  let k := ofHex key
  let v := ofHex value
  gives (f .little k k.length v v.length (zeros size)) (ofHex hex)

'''
for nm, f, sz, sel in (('test_sha256', 'Sha2.sha2_256', 32, (0, 1, 5, 8, 9)), ('test_sha512', 'Sha2.sha2_512', 64, (1, 8)), ('test_sha1', 'Sha1.sha1', 20, (1, 5, 8)),
    ('test_ripmd160', 'Ripemd160.ripemd160', 20, (1, 5, 8)), ('test_btc_hash160', 'BtcHash.hash160', 20, None), ('test_btc_hash256', 'BtcHash.hash256', 32, None)):
    body += cases('hashCase %s %d' % (f, sz), hv(nm), sel=sel)
for nm, f, sz, sel in (('test_hmac_sha256', 'Sha2.hmac_sha256', 32, (0, 4, 8)), ('test_hmac_sha512', 'Sha2.hmac_sha512', 64, (1, 4))):
    body += cases('hmacCase %s %d' % (f, sz), hm(nm), sel=sel)
emit('Hash', ['Verif.Replay.Codec', 'Verif.Model.Sha1', 'Verif.Model.Sha2', 'Verif.Model.Ripemd160', 'Verif.Model.BtcHash'], body + '\n')

# ---- Btc: bech32 and addresses
NET = {'&g_mainnet_chain_parameters': 'mainnet', '&g_testnet_chain_parameters': 'testnet', '&g_regnet_chain_parameters': 'regnet'}
bs = rd('btc/bech32.cpp')
def arr(src, after):
    b = src[src.index(after):]; b = b[b.index('CASES[] = {') + 11:]; b = b[:b.index('};')]
    return [join(x) for x in b.split(',') if '"' in x]
good = arr(bs, 'TEST(bech32, custom)')
bad = arr(bs, 'bip173_testvectors_invalid')
def raw(s):  # bytes of a C literal with \x escapes (adjacent literals already joined: \x takes two digits here)
    out = []; i = 0
    while i < len(s):
        if s[i] == '\\': out.append(int(s[i+2:i+4], 16)); i += 4
        else: out.append(ord(s[i])); i += 1
    return out
adr = rd('btc/address.cpp')
ad = [(q(a[0][1]), q(a[1][1]), NET[a[2][1]]) for a in calls(adr, 'test_address') if len(a) == 3 and strs(a)]
body = '''
open Address

/-- The loop of tests/btc/bech32.cpp 34-53; the expected `hrp` and values are read off the string, not computed by the reference program. -/
def bech32Case (s : String) : Bool :=
  let low := cstr (String.ofList (s.toList.map Char.toLower))
  let pos := s.length - 1 - (s.toList.reverse.takeWhile (· ≠ '1')).length
  let alphabet := "qpzry9x8gf2tvdw0s3jn54khce6mua7l".toList
  let values : List Byte := ((low.drop (pos + 1)).take (s.length - pos - 7)).map
    (fun b => BitVec.ofNat 8 (alphabet.idxOf (Char.ofNat b.toNat)))
  gives (Bech32.encode (low.take pos) pos values values.length (zeros 128)) (padded low 128) &&
  decide (Bech32.encodeLength pos values.length = s.length) &&
  gives (Bech32.decode (obj s) s.length (zeros 128) 128 (zeros 128)) ⟨values.length, padded (low.take pos) 128, pos, padded values 128⟩

/-- The loop of tests/btc/bech32.cpp 76-81 (`hrp_size` is `sizeof (size_t)` there). -/
def bech32Bad (s : List Byte) : Bool :=
  match Bech32.decode (s ++ [0#8]) s.length (zeros 256) 8 (zeros 256) with
  | .ok r => decide (r.ret < 0)
  | _ => false

/-- `test_address`, tests/btc/address.cpp 14-92. -/
def addressCase (s hex : String) (param : ChainParameters) : Bool :=
  let data := ofHex hex
  match addressDecode .little true (zeros 4096) (obj s) s.length (zeros 512) 512 param with
  | .ok d =>
    let back (r : Res (List Byte × Nat)) : Bool := gives r (padded (cstr s) 128, s.length)
    match d.kind with
    | .bad => false
    | .pubkey => decide (d.outSize = 20) && decide (data.take 23 = [0x76#8, 0xa9#8, 0x14#8] ++ d.out.take 20) &&
        back (toAddressPubkey .little d.out 20 (zeros 128) 128 param)
    | .script => decide (d.outSize = 20) && decide (data.take 22 = [0xa9#8, 0x14#8] ++ d.out.take 20) &&
        back (toAddressScript .little d.out 20 (zeros 128) 128 param)
    | .witnessV0Keyhash => decide (d.outSize = 20) && decide (data.take 22 = [0x00#8, 0x14#8] ++ d.out.take 20) &&
        back (toAddressWitnessV0Keyhash true d.out 20 (zeros 128) 128 param)
    | .witnessV0Scripthash => decide (d.outSize = 32) && decide (data.take 34 = [0x00#8, 0x20#8] ++ d.out.take 32) &&
        back (toAddressWitnessV0Scripthash true d.out 32 (zeros 128) 128 param)
    | .witnessUnknown => decide (d.outSize + 1 = data.length) && decide (data.drop 2 = (d.out.take d.outSize).drop 1) &&
        back (toAddressWitnessUnknown d.out d.outSize (zeros 128) 128 param)
  | _ => false

/-- tests/btc/address.cpp 94-104 and 130-142. -/
def badAddress (s : String) (outSize : Nat) : Bool :=
  match addressDecode .little true (zeros 4096) (obj s) s.length (zeros outSize) outSize mainnet with
  | .ok d => decide (d.kind = .bad)
  | _ => false

example : gives (toAddressPubkey .little (obj "keyid") 5 (zeros 256) 1 mainnet) (zeros 256, 0) = true := by decide +kernel
example : gives (toAddressScript .little (obj "keyid") 5 (zeros 256) 1 mainnet) (zeros 256, 0) = true := by decide +kernel
''' + cases('badAddress', [('"keyid"', '1')] + [(q(x), '1024') for x in ("xx1qpqyqszqgpqyqszqgpqyqszqgpqyqszqg23t9q4", "bc1qpqyqszqgpqyqszqgpqyqszqgpqyqszqgpqyqpnzxff", "bc17pqyqszqgpqyqszqgpqyqszqgpqyqszqg8d0gmc")]) \
 + cases('bech32Case', [(q(s),) for s in good]) + cases('bech32Bad', [('[' + ', '.join('%d#8' % b for b in raw(s)) + ']',) for s in bad]) + cases('addressCase', ad, sel=(0, 1, 2, 4) + tuple(range(27, 35)))
emit('Btc', ['Verif.Replay.Basic', 'Verif.Model.Bech32', 'Verif.Model.Address'], body + '\n')

# ---- Keys
ks = rd('btc/key.cpp')
wif = [(q(a[0][1]), q(a[1][1]), NET[a[2][1]], a[3][1] if len(a) > 3 else 'false') for a in calls(ks, 'test_key') if len(a) >= 3 and strs(a)]
def cstrs(name): return re.search(name + r'\s*=?\s*[({]?\s*(' + LIT + ')', ks).group(1)
va = [('addr1', 'strSecret1', 'false'), ('addr1C', 'strSecret1C', 'true'), ('addr2', 'strSecret2', 'false'), ('addr2C', 'strSecret2C', 'true')]
va = [(cstrs(a + r'\b'), cstrs(k + r'\b'), c) for a, k, c in va]
ex = rd('btc/exkey.cpp')
vec = []
for m in re.finditer(r'TestVector\(\s*((?:' + LIT + r'\s*)+)\)(.*?);', ex, re.S):
    seed = join(m.group(1))
    ds = [(join(p), join(k), c) for p, k, c in re.findall(r'\(\s*((?:' + LIT + r'\s*)+),\s*((?:' + LIT + r'\s*)+),\s*(\w+)\s*\)', m.group(2))]
    vec.append((seed, ds))
assert [len(d) for _, d in vec] == [6, 6, 2], [len(d) for _, d in vec]
body = '''
open Key

/-- `test_key`, tests/btc/key.cpp 12-38. -/
def wifCase (s hex : String) (param : ChainParameters) (compressed : Bool) : Bool :=
  let data := ofHex hex
  (match keyFromString false .little true (obj s) s.length (zeros 32) 0 param with
  | .ok r => r.ok && decide (r.key32 = data) && decide ((r.isCompressed ≠ 0) = (compressed = true))
  | _ => false) &&
  gives (keyToString .little data (zeros 64) compressed param) (padded (cstr s) 64, s.length)

/-- `verify_address`, tests/btc/key.cpp 263-284. -/
def verifyAddress (addr key : String) (compress : Bool) : Bool :=
  match keyFromString false .little true (obj key) key.length (zeros 32) 0 mainnet,
    Address.addressDecode .little true (zeros 4096) (obj addr) addr.length (zeros 64) 64 mainnet with
  | .ok r, .ok d => r.ok && decide ((r.isCompressed ≠ 0) = (compress = true)) && decide (d.kind = .pubkey) && decide (d.outSize = 20) &&
      gives (keyKeyid false .little r.key32 compress (zeros 20)) (d.out.take 20)
  | _, _ => false
''' + cases('wifCase', wif, sel=(0, 4)) + cases('verifyAddress', va, sel=(1,))
emit('Keys', ['Verif.Replay.Btc', 'Verif.Model.Key', 'Verif.Model.Address'], body + '\n')
# ---- Exkeys (too large for the kernel)
body = '''
open Key Exkey

/-- `fingera_ex_key key = {0}` and `fingera_ex_pubkey pubkey = {0}`. -/
def noKey : ExKey := ⟨⟨0#8, 0#32, 0#32, zeros 32⟩, zeros 32⟩
def noPub : ExPubkey := ⟨⟨0#8, 0#32, 0#32, zeros 32⟩, zeros 33⟩

/-- One turn of the loop of `RunTest`, tests/btc/exkey.cpp 142-183: the strings and their decoding. -/
def exkeyTexts (key : ExKey) (pub : ExPubkey) (pubS prvS : String) : Bool :=
  gives (exkeyToString .little key (zeros 128) mainnet) (padded (cstr prvS) 128, prvS.length) &&
  gives (exkeyFromString false .little true (obj prvS) prvS.length noKey mainnet) (key, true) &&
  gives (expubkeyToString .little pub (zeros 128) mainnet) (padded (cstr pubS) 128, pubS.length) &&
  gives (expubkeyFromString false .little true (obj pubS) pubS.length noPub mainnet) (pub, true)

/-- The keys of the next turn, if the public derivation agrees. -/
def exkeyNext (key : ExKey) (pub : ExPubkey) (child : U32) : Res (ExKey × ExPubkey × Bool) := do
  let fp ← keyFingerprint false .little key.key true
  let (k, r) ← exkeyDerive false .little key noKey child fp
  let p ← exkeyGetPub false k noPub
  if child.toNat < 0x80000000 then do
    let fp2 ← pubkeyFingerprint .little pub.pubkey
    let (p2, r2) ← expubkeyDerive false .little pub noPub child fp2
    pure (k, p, r && r2 && decide (p = p2))
  else pure (k, p, r)

def exkeyLoop (key : ExKey) (pub : ExPubkey) : List (String × String × U32) → Bool
  | [] => true
  | (pubS, prvS, child) :: rest => exkeyTexts key pub pubS prvS && (rest.isEmpty ||
      match exkeyNext key pub child with
      | .ok (k, p, b) => b && exkeyLoop k p rest
      | _ => false)

/-- `RunTest`, tests/btc/exkey.cpp 132-185. -/
def exkeyCase (seed : String) (ds : List (String × String × U32)) : Bool :=
  let s := ofHex seed
  match (do let key ← exkeyInit .little noKey s s.length; let pub ← exkeyGetPub false key noPub; pure (key, pub)) with
  | .ok (key, pub) => exkeyLoop key pub ds
  | _ => false
''' + cases('exkeyCase', [(q(s), '[' + ', '.join('(%s, %s, %s#32)' % (q(p), q(k), c) for p, k, c in ds) + ']') for s, ds in vec])
if ALL: emit('Exkeys', ['Verif.Replay.Basic', 'Verif.Model.Exkey'], body + '\n')
