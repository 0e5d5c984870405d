#!/usr/bin/env python3
"""Copy the repository's fixtures and golden values into lean/Verif/Conformance/Fixtures.lean.

Every value is taken from /repo; nothing is computed here except lengths."""
import re, base64
S = '/repo/src/'
rd = lambda p: open(S + p, 'rb').read()
out = ['''import Verif.Conformance.Sha
/-!
# The repository's fixtures and golden values

Written by `tools/vectors.py` from the files named in the comments. Data only.
-/
namespace Qos.Conformance
''']
def lit(name, path, data, what=None):
    h = data.hex() or '0'
    out.append(f'/-- {what or "The file"} src/{path}. -/\ndef {name} : List UInt8 := be {len(data)}\n  0x{h}\n')
def file(name, path): lit(name, path, rd(path))
I = 'integration/mock/'
file('primarySecret', 'qos_client/tests/mock/primary.secret.keep')
file('primaryPub', 'qos_client/tests/mock/primary.pub')
file('releasePcrs', I + 'dist/aws-x86_64.pcrs')
file('pcr3Preimage', I + 'namespaces/pcr3-preimage.txt')
file('genesisOutput', I + 'boot-e2e/genesis-dir/genesis_output')
file('genesisThreshold', I + 'boot-e2e/genesis-dir/quorum_threshold')
file('wrappedQuorumKey', I + 'boot-e2e/genesis-dir/dr_wrapped_quorum_key')
file('drSecret', I + 'mock_p256_dr.secret.keep')
file('drPub', I + 'mock_p256_dr.pub')
file('quorumPub', I + 'namespaces/quit-coding-to-vape/quorum_key.pub')
for u in ('user1', 'user2', 'user3'):
    d = I + f'boot-e2e/all-personal-dir/{u}-dir/{u}'
    file(u + 'Secret', d + '.secret'); file(u + 'Pub', d + '.pub'); file(u + 'Share', d + '.share')
    file(u + 'SetPub', I + f'keys/manifest-set/{u}.pub')
    assert rd(I + f'keys/manifest-set/{u}.pub') == rd(I + f'keys/share-set/{u}.pub')
file('setThreshold', I + 'keys/manifest-set/quorum_threshold')
assert rd(I + 'keys/manifest-set/quorum_threshold') == rd(I + 'keys/share-set/quorum_threshold')
file('oldManifest', 'qos_core/fixtures/old_manifest')
pem = rd('qos_nsm/src/nitro/static/aws_root_cert.pem').decode()
lit('awsRoot', 'qos_nsm/src/nitro/static/aws_root_cert.pem', base64.b64decode(''.join(l for l in pem.split('\n') if '-----' not in l)), 'The certificate in')
# golden_artifacts.rs
G = 'qos_client/tests/golden_artifacts.rs'
src = rd(G).decode()
for n, l in [('EXPECTED_MANIFEST_JSON', 'goldenManifest'), ('EXPECTED_APPROVAL_JSON', 'goldenApproval'),
             ('EXPECTED_MANIFEST_ENVELOPE_JSON', 'goldenEnvelope'), ('EXPECTED_MANIFEST_V0_JSON', 'goldenManifestV0')]:
    m = re.search(r'const ' + n + r': &str = concat!\((.*?)\n\);', src, re.S)
    text = ''.join(x.replace('\\"', '"') for x in re.findall(r'^\t"(.*)",$', m.group(1), re.M))
    lit(l, G, text.encode(), f'`{n}` of')
    out[-1] = out[-1] + f'/-- `{n}` of src/{G}. -/\ndef {l}Text : String :=\n  ' + ' ++\n  '.join('"' + x + '"' for x in re.findall(r'^\t"(.*)",$', m.group(1), re.M)) + '\n'
for n, l in [('PIVOT_SHA256_HEX', 'goldenPivotHash'), ('MANIFEST_BORSH_SHA256_HEX', 'goldenManifestDigest'),
             ('MANIFEST_ENVELOPE_BORSH_SHA256_HEX', 'goldenEnvelopeDigest'), ('MANIFEST_V0_BORSH_SHA256_HEX', 'goldenManifestV0Digest')]:
    m = re.search(r'const ' + n + r': &str =\s*"([0-9a-f]{64})"', src)
    out.append(f'/-- `{n}` of src/{G}. -/\ndef {l} : List UInt8 := be 32 0x{m.group(1)}\n')

# the recorded attestation document of a real device, decoded (COSE payload, CBOR)
def cbor(b, i):
    t, a, i = b[i] >> 5, b[i] & 31, i + 1
    if a < 24: n = a
    elif a == 31: n = None
    else:
        w = {24: 1, 25: 2, 26: 4, 27: 8}[a]; n = int.from_bytes(b[i:i + w], 'big'); i += w
    if t == 0: return n, i
    if t == 1: return -1 - n, i
    if t == 2: return b[i:i + n], i + n
    if t == 3: return b[i:i + n].decode(), i + n
    if t == 4:
        r = []
        for _ in range(n): x, i = cbor(b, i); r.append(x)
        return r, i
    if t == 5:
        r, k = {}, 0
        while (b[i] != 0xff) if n is None else (k < n):
            x, i = cbor(b, i); y, i = cbor(b, i); r[x] = y; k += 1
        return r, i + (n is None)
    if t == 6: return cbor(b, i)
    return {20: False, 21: True, 22: None}[a], i
D = 'qos_nsm/src/static/mock_attestation_doc'
doc = cbor(cbor(rd(D), 0)[0][2], 0)[0]
assert doc['digest'] == 'SHA384' and doc['nonce'] is None
out.append(f'/-- `module_id` of src/{D}. -/\ndef docModule : String := "{doc["module_id"]}"\n')
out.append(f'/-- `timestamp` of src/{D}. -/\ndef docTimestamp : Nat := {doc["timestamp"]}\n')
for f, l in [('user_data', 'docUserData'), ('certificate', 'docCertificate')]: lit(l, D, doc[f], f'`{f}` of')
out.append(f'/-- `public_key` of src/{D}. -/\ndef docPublicKey : Option (List UInt8) := ' + ('none' if doc['public_key'] is None else f'some (be {len(doc["public_key"])}\n  0x{doc["public_key"].hex()})') + '\n')
out.append(f'/-- `cabundle` of src/{D}. -/\ndef docCabundle : List (List UInt8) := [' + ',\n  '.join(f'be {len(c)} 0x{c.hex()}' for c in doc['cabundle']) + ']\n')
out.append(f'/-- `pcrs` of src/{D}. -/\ndef docPcrs : List (Nat × List UInt8) := [' + ',\n  '.join(f'({k}, be {len(v)} 0x{v.hex()})' for k, v in sorted(doc['pcrs'].items())) + ']\n')
mock = rd('qos_nsm/src/mock.rs').decode()
for n, l in [('MOCK_USER_DATA_NSM_ATTESTATION_DOCUMENT', 'mockUserData')] + [(f'MOCK_PCR{i}', f'mockPcr{i}') for i in range(4)]:
    h = re.search(n + r': &str =\s*"([0-9a-f]+)"', mock).group(1)
    lit(l, 'qos_nsm/src/mock.rs', bytes.fromhex(h), f'`{n}` of')
# the preprod fixtures
file('oldDevSecret', 'integration/fixtures/preprod/old_dev.secret.keep')
for e in ['ump', 'evm-parser', 'notarizer', 'signer', 'tls-fetcher', 'deploy-test']:
    n = 'preprod' + ''.join(w.capitalize() for w in e.split('-'))
    file(n + 'Share', f'integration/fixtures/preprod/{e}/old_dev.share.keep')
    file(n + 'Pub', f'integration/fixtures/preprod/{e}/quorum_key.pub')
out.append('end Qos.Conformance\n')
open('/verif/lean/Verif/Conformance/Fixtures.lean', 'w').write('\n'.join(out))
