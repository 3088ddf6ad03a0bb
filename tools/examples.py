"""Writes the texts of /repo/examples/*.asn1 as Lean definitions: lean/Verif/Tests/Texts.lean."""
out = ['import Verif.Model.Lexer\n\n/-! The texts of /repo/examples, copied by tools/examples.py. -/\n\nnamespace Asn1go.Tests\n\n'
       '/-- Lines, each with its end. -/\ndef unlines : List Str → Str\n  | [] => []\n  | a :: l => a ++ \'\\n\' :: unlines l\n\n']
for n in ['rfc1155', 'rfc1157', 'rfc4120', 'rfc4511', 'rfc5280']:
    text = open('/repo/examples/%s.asn1' % n).read()
    assert '\r' not in text
    lines = text.split('\n')
    last = lines.pop()
    chunks = [lines[i:i + 60] for i in range(0, len(lines), 60)]
    for k, ch in enumerate(chunks):
        out.append('/-- /repo/examples/%s.asn1:%d-%d -/\ndef %sPart%d : Str := unlines [\n' % (n, 60 * k + 1, 60 * k + len(ch), n, k))
        out.append(',\n'.join('  c! "%s"' % l.replace('\\', '\\\\').replace('"', '\\"').replace('\t', '\\t') for l in ch))
        out.append(']\n\n')
    parts = ['%sPart%d' % (n, k) for k in range(len(chunks))] + (['c! "%s"' % last] if last else [])
    out.append('/-- /repo/examples/%s.asn1 -/\ndef %s : Str := %s\n\n' % (n, n, ' ++ ('.join(parts) + ')' * (len(parts) - 1)))
out.append('end Asn1go.Tests\n')
open('/verif/lean/Verif/Tests/Texts.lean', 'w').write(''.join(out))
