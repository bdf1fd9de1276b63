#!/usr/bin/env python3
"""Append results of mutate.py to seeded/LOG.jsonl.

usage: writelog.py OUT.jsonl [JUDGEMENT.json]
JUDGEMENT: {id: {"false": [...], "tightened": [...], "note": "..."}} written by hand: which of the
failed theorems are really false of the edited model, and what was tightened afterwards.

theorems_failed: the proof itself broke.  theorems_lost_through_lemmas: the proof uses a lemma that
broke; by itself this does not show that the statement is false of the edited model.
"""
import json, os, sys
log = os.path.join(os.path.dirname(os.path.abspath(__file__)), "..", "seeded", "LOG.jsonl")
J = json.load(open(sys.argv[2])) if len(sys.argv) > 2 else {}
with open(log, "a") as fh:
    for l in open(sys.argv[1]):
        d = json.loads(l)
        j = J.get(d["id"], {})
        if j.get("skip"): continue
        e = {"definition": d["definition"] + " (lean/" + d["file"] + ")",
             "edit": d["old"] + "  =>  " + d["new"],
             "claim_broken": d["claim"],
             "properties_expected_to_fail": d.get("props", []),
             "result": d["result"],
             "theorems_failed": d.get("direct_claims", []),
             "lemmas_failed": [x for x in d.get("direct", []) if x not in d.get("direct_claims", [])],
             "theorems_lost_through_lemmas": [x for x in d.get("claims", [])
                                              if x not in d.get("direct_claims", [])],
             "judged_false_of_the_edit": j.get("false", []),
             "theorems_tightened": j.get("tightened", [])}
        if j.get("note"): e["note"] = j["note"]
        fh.write(json.dumps(e, ensure_ascii=False) + "\n")
