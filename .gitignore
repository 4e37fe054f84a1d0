__pycache__/
*.pyc
lean/.lake/
