"""Write MANIFEST.json. Properties without an entry are listed as partial with no theorems yet."""
import json
C = {}
def claim(p, status, theorems, note): C[p] = dict(property=p, status=status, theorems=["Grate.Props." + t for t in theorems], note=note)

claim("C01", "proved", ["C01_open_dispatch", "C01_open_order_independent", "C01_witness"], "Any registration history, any opener outcomes.")
claim("C02", "proved", ["C02_open_trace", "C02_unknown_iff"], "")
claim("C03", "proved", ["C03_wrap_recognised", "C03_wrap_two", "C03_wrap_one", "C03_wrap_message", "C03_only_second", "C03_first_position_not_recognised"], "Only the second wrapped error is visible to errors.Is; the first position is not.")
claim("C04", "proved", ["C04_tsv_roundtrip"], "")
claim("C05", "proved", ["C05_tsv_lossless", "C05_rows_unique"], "")
claim("C06", "partial", ["C06_order_independent"], "Order independence only; the exact 80 percent threshold over float64 is not proved yet.")
claim("C07", "partial", ["C07_csv_never_opens", "C07_counterexample", "C07_csv_declines_partial"], "False of the code: OpenCSV never succeeds. Negation proved with a witness.")
claim("C08", "proved", ["C08_cursor", "C08_drain", "C08_isEmpty"], "")
claim("C09", "proved", ["C09_scan_position", "C09_scan_width", "C09_scan_fill"], "")
exec(open('/verif/tools/claims_more.py').read()) if __import__('os').path.exists('/verif/tools/claims_more.py') else None

ids = [json.loads(l)["id"] for l in open('/verif/properties.jsonl') if l.strip()]
out = [C.get(i, dict(property=i, status="partial", theorems=[], note="Not started: no theorem yet.")) for i in ids]
json.dump({"claims": out}, open('/verif/MANIFEST.json', 'w'), indent=1, ensure_ascii=False)
print(len(out), sum(c["status"] == "proved" for c in out))
