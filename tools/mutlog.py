"""Append mutation results (one JSON object per line, from the scratch harness) to seeded/LOG.jsonl.

theorems_failed: declarations whose own elaboration fails on the edited program.
theorems_resting_on_failed_helper: claims that still elaborate when the failed helper lemmas are stubbed, but whose
proof uses one of them, so that no proof of them exists for the edited program."""
import json, sys
LOG = '/verif/seeded/LOG.jsonl'
# corrections of the list of claims an edit was expected to break
CLAIMS = {'det1': ['C06'], 'det14': ['C25', 'C43'], 'det33': ['C34', 'C19']}
# edited programs that do not compile say nothing about the theorems
MODEL = {'Verif.Composition', 'Verif.Detail', 'Verif.Gerg', 'Verif.Ffi', 'Verif.F64'}
done = {json.loads(l)['id'] for l in open(LOG) if l.strip()}
with open(LOG, 'a') as out:
    for l in open(sys.argv[1]):
        r = json.loads(l)
        if r['id'] in done or 'bad' in r:
            continue
        if MODEL & set(r['unbuilt']):
            print(r['id'], 'edited model does not compile')
            continue
        r['claims'] = CLAIMS.get(r['id'], r['claims'])
        hit = set(r['direct_c']) | set(r['via_helper'])
        missed = [c for c in r['claims'] if not any('.' + c + '_' in t for t in hit)]
        out.write(json.dumps({
            'id': r['id'], 'definition': r['defn'], 'edit': r['edit'], 'claims_broken': r['claims'],
            'theorems_failed': r['direct'], 'theorems_resting_on_failed_helper': r['via_helper'],
            'claims_not_failing': missed, 'survived': r['rc'] == 0,
            'all_modules_elaborated': r['all_elaborated'], 'theorems_tightened': []}) + '\n')
        print(r['id'], 'SURVIVED' if r['rc'] == 0 else '', 'missed', missed if missed else '-')
