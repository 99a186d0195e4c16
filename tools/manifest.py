# Writes ../MANIFEST.json. Entries: id -> (status, [theorems], note)
import json,os
M={}
def add(i,st,th,note): M[i]=dict(property=i,status=st,theorems=["Verif.Props."+t for t in th],note=note)
add("C01","proved",["C01_decode","spec_longest","spec_tokens_cover"],"one flushed call; table decoders, any number of codecs, any tame rest of the pipeline")
add("C02","partial",["C02_chunking_partial","C02_chunking_violated"],"true for inputs without undecodable bytes; the code loses data when an undecodable byte starts a later chunk (libbsdconv.c:665-674)")
add("C03","proved",["C03_encode"],"table encoders whose last table has one-symbol patterns (all shipped ones), or input without unencodable symbols")
add("C04","proved",["C04_rewrite"],"")
add("C05","proved",["C05_pipeline","C05_outcome_unique"],"single chunk, or no undecodable byte")
add("C06","proved",["C06_terminates","C06_next","C06_tables","C06_transcode","C06_chain","C06_utf8"],"all codecs that are Proper (Spec/Progress.lean), no FROM phase directly after a FROM phase")
add("C12","proved",["C12_flush_settles"],"all codecs, with or without callbacks")
add("C56","partial",["C56_encode_multi_violated"],"the property is false of the code; witness proved")
exec(open(os.path.join(os.path.dirname(os.path.abspath(__file__)),"manifest_more.py")).read()) if os.path.exists(os.path.join(os.path.dirname(os.path.abspath(__file__)),"manifest_more.py")) else None
ids=[json.loads(l)["id"] for l in open(os.path.join(os.path.dirname(os.path.abspath(__file__)),"../properties.jsonl"))]
out=[M[i] for i in ids if i in M]
for i in M: assert i in ids,i
json.dump({"claims":out},open(os.path.join(os.path.dirname(os.path.abspath(__file__)),"../MANIFEST.json"),"w"),indent=1)
print(len(out),"claims;", [i for i in ids if i not in M])
