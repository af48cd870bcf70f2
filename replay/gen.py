"""Regenerates /verif/lean/Verif/Check/*.lean (except Replay.lean) from the tests and
documentation examples in /repo/midi2.

rp.py parses the Rust test bodies, tr.py translates them to computations of the model,
doc.py does the same for documentation examples.  Run: python3 gen.py"""
import os, pickle, subprocess, sys
here = os.path.dirname(os.path.abspath(__file__))
for script in ('tr.py', 'doc.py'):
    subprocess.run([sys.executable, os.path.join(here, script)], check=True, cwd='/tmp')
tests = pickle.load(open('/tmp/replay_tests.pkl', 'rb'))
docs = pickle.load(open('/tmp/replay_docs.pkl', 'rb'))

def example(head, lines):
    return '\n'.join([head, 'example : (do'] + ['    ' + x for x in lines]
                     + ['    pure () : Res Unit) = .ok () := by decide +kernel', ''])

MODULE = {'channel_voice1': 'ChannelVoice', 'channel_voice2': 'ChannelVoice', 'sysex7': 'Sysex7',
          'sysex8': 'Sysex8', 'flex_data': 'FlexData', 'ump_stream': 'UmpStream', 'ci': 'Ci'}
WHAT = {'ChannelVoice': 'the unit tests of channel_voice1 and channel_voice2',
        'Sysex7': 'the unit tests of sysex7', 'Sysex8': 'the unit tests of sysex8',
        'FlexData': 'the unit tests of flex_data', 'UmpStream': 'the unit tests of ump_stream',
        'Ci': 'the unit tests of ci',
        'Misc': 'the unit tests of message, packet, packets, system_common, utility and detail',
        'Docs': 'the examples in the documentation (doc comments and README)'}
groups = {}
for rel, ts in tests.items():
    for name, line, lines in ts:
        groups.setdefault(MODULE.get(rel.split('/')[0], 'Misc'), []).append(
            example(f'-- {rel}.rs:{line} {name}', lines))
for rel, ts in docs.items():
    for name, line, lines in ts:
        groups.setdefault('Docs', []).append(example(f'-- /repo/midi2/{rel}:{line}', lines))
for g, l in groups.items():
    with open(f'/verif/lean/Verif/Check/{g}.lean', 'w') as f:
        f.write(f'''import Verif.Check.Replay

/-!
# Replay of {WHAT[g]}

Generated by /verif/replay from the Rust source; see `Verif.Check.Replay`.  These are
{len(l)} tests over literals, not proofs.
-/

set_option linter.unusedVariables false

namespace Midi2.Replay

''' + '\n'.join(l) + '\nend Midi2.Replay\n')
    print(g, len(l))
