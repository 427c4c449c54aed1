cases.txt
